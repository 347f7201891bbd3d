import Verif.Basic.Scalar

/-! Shared vocabulary for the optimizers of `limbo::opt`. -/

namespace Limbo

/-- Return type of a function to optimize: value and optional gradient.
`opt/optimizer.hpp:57-59` (`eval_t`). -/
abbrev EvalT (α : Type) := α × Option (List α)

/-- A function to optimize, `f(x, compute_gradient)`; `Eigen::VectorXd` is a list of coordinates.
`opt/optimizer.hpp:81-95` (`eval`, `eval_grad` call `f(x,false)` / `f(x,true)`).
Simplification: `f` is pure (acquisition functors and likelihoods are, up to caches). -/
abbrev ObjFn (α : Type) := List α → Bool → EvalT α

/-- An optimizer functor `(f, init, bounded) ↦ point`.  `none` is undefined behaviour
(a failed `assert` or a size mismatch inside Eigen). -/
abbrev Optz (α : Type) := ObjFn α → List α → Bool → Option (List α)

/-- `opt::eval` (`opt/optimizer.hpp:81-86`). -/
def evalNoGrad {α : Type} (f : ObjFn α) (x : List α) : α := (f x false).1

/-- The clamping loop body shared by Rprop, Adam and GradientAscent:
`if (x < 0) x = 0; if (x > 1) x = 1;` (`opt/rprop.hpp:101-107`, `opt/adam.hpp:116-123`,
`opt/gradient_ascent.hpp:111-118`). -/
def clampCoord {α : Type} [Scalar α] (x : α) : α :=
  let x := if lt x (lit 0) then lit 0 else x
  if lt (lit 1) x then lit 1 else x

/-- Clamp every coordinate when `bounded`. -/
def clampIf {α : Type} [Scalar α] (bounded : Bool) (v : List α) : List α :=
  if bounded then v.map clampCoord else v

/-- `std::min(a, b)`: `b < a ? b : a`. -/
def stdMin {α : Type} [Scalar α] (a b : α) : α := if lt b a then b else a

/-- `std::max(a, b)`: `a < b ? b : a`. -/
def stdMax {α : Type} [Scalar α] (a b : α) : α := if lt a b then b else a

end Limbo
