import Mathlib.Probability.Distributions.Gaussian.Real
import Verif.Spec.Hv

/-! Expected hypervolume improvement, for two objectives (maximisation). -/

namespace Limbo

open MeasureTheory ProbabilityTheory

/-- The point of the plane. -/
def planePt (p : ℝ × ℝ) : Fin 2 → ℝ := ![p.1, p.2]

/-- By how much the point `z` enlarges the volume dominated by `P` above the reference point `r`. -/
noncomputable def hvImprovement (r : ℝ × ℝ) (P : List (ℝ × ℝ)) (z : ℝ × ℝ) : ℝ :=
  dominatedVolume (planePt r) ((z :: P).map planePt) - dominatedVolume (planePt r) (P.map planePt)

/-- The expected improvement for independent Gaussian objectives with means `mu` and variances `var`. -/
noncomputable def expectedHvImprovement (r : ℝ × ℝ) (P : List (ℝ × ℝ)) (mu var : ℝ × ℝ) : ℝ :=
  ∫ x, ∫ y, hvImprovement r P (x, y) ∂(gaussianReal mu.2 var.2.toNNReal) ∂(gaussianReal mu.1 var.1.toNNReal)

/-- No point of `P` dominates another one. -/
def MutuallyNonDominated (P : List (ℝ × ℝ)) : Prop := ∀ p ∈ P, ∀ q ∈ P, p.1 ≤ q.1 → p.2 ≤ q.2 → p = q

/-- The contract of `std::sort` by the first objective (not stable). -/
structure SortsByFirst (sort : List (ℝ × ℝ) → List (ℝ × ℝ)) : Prop where
  perm : ∀ P, (sort P).Perm P
  sorted : ∀ P, (sort P).Pairwise fun p q => p.1 ≤ q.1

end Limbo
