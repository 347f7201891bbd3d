import Verif.Model.BoParego
import Verif.Spec.BoGp
import Verif.Spec.Parego

/-! Specification of "the ParEGO model predicts from these data". -/

namespace Limbo

variable {E : GpEnv}

/-- Weights as `tools::random_vector` draws them (uniform in [0, 1)) unless all of them are zero. -/
def GoodDraws (c : Parego.Ctx) : Prop := (∀ i, 0 ≤ c.draw i) ∧ ∀ n, 0 < n → 0 < (c.randomVector n).sum

/-- The ParEGO model `m` predicts from exactly the data `d` (finite vectors, in this order; `ys` the vectors of objective values): there is
one vector of non-negative weights `r`, such that the model is the Gaussian process fitted to the points of `d` and the augmented
Tchebycheff values `vs` of *all* the objective vectors for these weights. -/
def ParegoFits (rho : ℝ) (m : Parego.St E) (d : List (List XR × List XR)) : Prop :=
  ∃ xs ys r vs, xs.length = ys.length ∧ d = finPairs xs ys ∧ (∀ a ∈ r, (0:ℝ) ≤ a) ∧ 0 < r.sum ∧
    List.Forall₂ (fun y v => AugTchebycheff rho r y v) ys vs ∧ GpFits m.gp (finPairs xs (vs.map fun v => [v]))

end Limbo
