import Mathlib.Algebra.BigOperators.Fin
import Mathlib.Analysis.Real.Sqrt
import Verif.Spec.Opt

/-! Vocabulary for the convergence of the gradient-based optimizers, in exact arithmetic. -/

namespace Limbo.Ascent

/-- A real vector as an argument of an optimizer. -/
def vec {n : ℕ} (x : Fin n → ℝ) : List XR := List.ofFn fun i => XR.fin (x i)

/-- The nearest point of `[0,1]^n` if `bounded`, else the point itself. -/
noncomputable def box {n : ℕ} (bounded : Bool) (x : Fin n → ℝ) : Fin n → ℝ := fun i => if bounded then max 0 (min (x i) 1) else x i

/-- A point an optimizer may propose. -/
def Feasible {n : ℕ} (bounded : Bool) (x : Fin n → ℝ) : Prop := bounded = true → ∀ i, 0 ≤ x i ∧ x i ≤ 1

/-- Squared Euclidean distance. -/
def sqDist {n : ℕ} (x y : Fin n → ℝ) : ℝ := ∑ i, (x i - y i) ^ 2

/-- The objective `f`, asked for value and gradient, answers with `F` and `G`. -/
def Computes {n : ℕ} (f : ObjFn XR) (F : (Fin n → ℝ) → ℝ) (G : (Fin n → ℝ) → Fin n → ℝ) : Prop :=
  ∀ x, f (vec x) true = (XR.fin (F x), some (vec (G x)))

/-- `F` is concave with (super)gradient `G` on the feasible points. -/
def ConcaveWith {n : ℕ} (bounded : Bool) (F : (Fin n → ℝ) → ℝ) (G : (Fin n → ℝ) → Fin n → ℝ) : Prop :=
  ∀ x y, Feasible bounded x → Feasible bounded y → F y ≤ F x + ∑ i, G x i * (y i - x i)

/-- `F` has curvature at most `L` on the feasible points (as every function with an `L`-Lipschitz gradient). -/
def SmoothWith {n : ℕ} (bounded : Bool) (L : ℝ) (F : (Fin n → ℝ) → ℝ) (G : (Fin n → ℝ) → Fin n → ℝ) : Prop :=
  ∀ x y, Feasible bounded x → Feasible bounded y → F x + ∑ i, G x i * (y i - x i) - L / 2 * sqDist y x ≤ F y

/-- Past values, each step back weighted with a further factor `γ`: `g (t-1) + γ g (t-2) + γ² g (t-3) + …`. -/
def decaying (γ : ℝ) (g : ℕ → ℝ) (t : ℕ) : ℝ := ∑ j ∈ Finset.range t, γ ^ (t - 1 - j) * g j

/-- The exponentially weighted average of `g 0, …, g t`. -/
noncomputable def expAverage (β : ℝ) (g : ℕ → ℝ) (t : ℕ) : ℝ := decaying β g (t + 1) / decaying β (fun _ => 1) (t + 1)

end Limbo.Ascent
