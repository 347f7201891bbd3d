import Verif.Basic.Opt
import Verif.Basic.Xt

/-! Specification vocabulary for the optimizer properties (no reference to the model). -/

namespace Limbo

variable {α : Type}

/-- `q` is a point of `[0,1]^d`. -/
def InUnitBox [Scalar α] (d : Nat) (q : List α) : Prop :=
  q.length = d ∧ ∀ x ∈ q, le (lit 0) x = true ∧ le x (lit 1) = true

/-- `q` has `d` coordinates, each in `[0,1]` or NaN. -/
def InUnitBoxOrNaN [Scalar α] (d : Nat) (q : List α) : Prop :=
  q.length = d ∧ ∀ x ∈ q, isNaN x = true ∨ (le (lit 0) x = true ∧ le x (lit 1) = true)

/-- `r` is the first best element of the list of visited points: its value is not NaN, no visited point
is strictly better, and no earlier one is as good. -/
def FirstBest [Scalar α] (val : List α → α) (visited : List (List α)) (r : List α) : Prop :=
  isNaN (val r) = false ∧
  ∃ pre post, visited = pre ++ r :: post ∧
    (∀ q ∈ pre, le (val r) (val q) = false) ∧ (∀ q ∈ visited, lt (val r) (val q) = false)

/-- All coordinates are real numbers. -/
def AllFin (v : List XR) : Prop := ∀ x ∈ v, ∃ r : ℝ, x = XR.fin r

/-- `p'` is reached from `p` by moving in the direction of the sign of the partial derivative `a`. -/
def MovesUphill [Scalar α] (a p p' : α) : Prop :=
  (lt (lit 0) a = true → le p p' = true) ∧ (lt a (lit 0) = true → le p' p = true) ∧
  (lt (lit 0) a = false → lt a (lit 0) = false → p' = p)

/-- From `q` the optimizer moved to `q'` uphill in every coordinate (w.r.t. the gradient reported at `q`). -/
def UphillStep [Scalar α] (f : ObjFn α) (q q' : List α) : Prop :=
  ∀ g, (f q true).2 = some g → ∀ (j : Nat) (a x y : α), g[j]? = some a → q[j]? = some x → q'[j]? = some y →
    MovesUphill a x y

/-- `f` always returns a gradient with as many components as its argument. -/
def HasGradient (f : ObjFn α) : Prop := ∀ q, ∃ g, (f q true).2 = some g ∧ g.length = q.length

end Limbo
