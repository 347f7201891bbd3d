import Verif.Model.BoSparse
import Verif.Spec.BoGp

/-! Specification of "the GP predicts from a part of the data". -/

namespace Limbo

variable {E : GpEnv}

/-- Every point has `din` coordinates, all in `[0, 1]`. -/
def PointsInUnitBox (din : Nat) (d : List (List XR × List XR)) : Prop := ∀ p ∈ d, p.1.length = din ∧ ∀ c ∈ p.1, ∃ r : ℝ, c = XR.fin r ∧ 0 ≤ r ∧ r ≤ 1

/-- The GP `g` is fitted to some of the data `d`, in the original order: to all of them when there are at most `n`, to at least one when
there are any, and, if the points lie in the unit box of dimension `din`, to exactly `n` of them when there are more. -/
def FitsPart (n din : Nat) (g : GpState E) (d : List (List XR × List XR)) : Prop :=
  ∃ kept, kept.Sublist d ∧ GpFits g kept ∧ (d.length ≤ n → kept = d) ∧ (d ≠ [] → kept ≠ []) ∧ (PointsInUnitBox din d → kept.length = min d.length n)

end Limbo
