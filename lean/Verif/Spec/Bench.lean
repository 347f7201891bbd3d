import Verif.Model.Bench

/-! Vocabulary for the benchmark test functions. -/

namespace Limbo.Bench

/-- `x` is a global minimum of the test function, over all reals (so a maximum of what the optimiser is given). -/
def TestFn.Minimal {n : ℕ} (F : TestFn n) (x : Fin n → ℝ) : Prop := ∀ y, F.f x ≤ F.f y

/-- The box in which the optimiser searches. -/
def TestFn.InBox {n : ℕ} (F : TestFn n) (x : Fin n → ℝ) : Prop := ∀ i, 0 ≤ x i ∧ x i ≤ 1

/-- The reported accuracy is the regret of the point that was evaluated: how far its value is from the best possible value. -/
def TestFn.AccuracyIsRegret {n : ℕ} (F : TestFn n) : Prop :=
  ∀ x best, F.Minimal best → F.accuracy (F.eval x) = F.f x - F.f best

end Limbo.Bench
