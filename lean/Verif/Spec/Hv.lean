import Mathlib.MeasureTheory.Measure.Lebesgue.Basic
import Verif.Basic.Scalar

/-! What the hypervolume computation is about: dominance (maximisation) and the volume of the dominated region. -/

namespace Limbo

/-- `p` dominates `q` in the first `m` coordinates: nowhere smaller, somewhere larger. -/
def HvDom {α : Type} [Scalar α] (m : Nat) (p q : List α) : Prop :=
  (∀ k < m, ∀ a b, p[k]? = some a → q[k]? = some b → le b a = true) ∧ ∃ k < m, ∃ a b, p[k]? = some a ∧ q[k]? = some b ∧ lt b a = true

/-- The volume of the region between the reference point `r` and the points: the union of the boxes `[r, p]`. -/
noncomputable def dominatedVolume {d : Nat} (r : Fin d → ℝ) (pts : List (Fin d → ℝ)) : ℝ := (MeasureTheory.volume (⋃ p ∈ pts, Set.Icc r p)).toReal

end Limbo
