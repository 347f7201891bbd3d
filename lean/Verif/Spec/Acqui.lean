import Mathlib.Probability.Distributions.Gaussian.Real

/-! Specification of the acquisition functions (no reference to the model). -/

namespace Limbo

open MeasureTheory ProbabilityTheory

/-- The expected amount by which a Gaussian variable with mean `m` and variance `var` exceeds `b`: `E[max(0, Y - b)]`. -/
noncomputable def expectedExcess (m var b : ℝ) : ℝ := ∫ y, max 0 (y - b) ∂(gaussianReal m var.toNNReal)

/-- The probability that a Gaussian variable with mean `m` and variance `var` is at least `b`. -/
noncomputable def probAtLeast (m var b : ℝ) : ℝ := (gaussianReal m var.toNNReal).real (Set.Ici b)

/-- Probability that a normal variable is above `b`. -/
noncomputable def probAbove (m var b : ℝ) : ℝ := (gaussianReal m var.toNNReal).real (Set.Ioi b)

end Limbo
