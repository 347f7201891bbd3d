import Verif.Spec.BoAcqui

/-! Vocabulary for the convergence of Bayesian optimization with an arbitrary optimizer of the acquisition function. -/

namespace Limbo

/-- The search space: points of `d` coordinates between 0 and 1. -/
def UnitBox (d : Nat) : Set (List ℝ) := {v | v.length = d ∧ ∀ x ∈ v, 0 ≤ x ∧ x ≤ 1}

/-- At `x` the upper confidence bound is within `eps` of the highest on `S`. -/
def UcbNearBest {E : GpEnv} (g : GpState E) (F : List ℝ → ℝ) (alpha eps : ℝ) (S : Set (List ℝ)) (x : List ℝ) : Prop :=
  ∀ mean var, Predicts g mean var → ∀ q ∈ S, F (mean q) + alpha * √(var q) ≤ F (mean x) + alpha * √(var x) + eps

/-- `S` can be divided into `m` cells such that the squared kernel distance `k(p,p) - 2 k(p,q) + k(q,q)` of points of the same cell is at most `w`. -/
def CellsOf (k : List ℝ → List ℝ → ℝ) (S : Set (List ℝ)) (m : Nat) (w : ℝ) : Prop :=
  ∃ cell : List ℝ → Fin m, ∀ p ∈ S, ∀ q ∈ S, cell p = cell q → k p p - 2 * k p q + k q q ≤ w

/-- `opt` maximises within `eps` on `S`: for every objective whose values on `S` are the numbers `F v`, bounded above, it returns a point of `S` whose value
is within `eps` of every value on `S`. -/
def MaximisesWithin (opt : ObjFn XR → OptRes XR) (S : Set (List ℝ)) (eps : ℝ) : Prop :=
  ∀ (obj : ObjFn XR) (F : List ℝ → ℝ), (∀ v ∈ S, (obj (v.map XR.fin) false).1 = XR.fin (F v)) → (∃ B, ∀ v ∈ S, F v ≤ B) →
    ∃ x ∈ S, opt obj = .point (x.map XR.fin) ∧ ∀ q ∈ S, F q ≤ F x + eps

end Limbo
