import Verif.Model.BoMultiGp
import Verif.Spec.BoGp
import Verif.Spec.MultiGp

/-! Specification of "the MultiGP holds these data and predicts from them". -/

namespace Limbo

variable {E : GpEnv}

/-- The `MultiGP` `g` holds exactly the data `d` (finite vectors, in this order), and at every point it predicts, for each output, the
variance of the Gaussian process posterior given `d` (the prior one without data), with the kernel of that output. -/
def MultiGpHolds (g : MultiGpState E) (d : List (List XR × List XR)) : Prop :=
  ∃ xs ys, xs.length = ys.length ∧ d = finPairs xs ys ∧ MultiGp.observationsOf g = ys ∧
    (xs = [] → 0 < g.dimOut → ∀ v, ∃ σ, MultiGp.sigma g v = some σ ∧
      ∀ (c : Nat) (s : GpState E.sub), g.models[c]? = some s → σ[c]? = some (s.kf.op v v + s.kf.noise)) ∧
    (xs ≠ [] → MultiGp.samplesOf g = some xs ∧ ∃ din dout, DataSet xs ys din dout ∧ g.models.length = dout ∧
      ∀ v, ∃ σ, MultiGp.sigma g v = some σ ∧ σ.length = dout ∧
        ∀ (c : Nat) (s : GpState E.sub), g.models[c]? = some s → σ[c]? = some (reportedVar s.kf.op s.kf.noise xs v))

/-- Its mean predictions are, for each output, the mean of the posterior given `d` (the prior one without data), with the kernel of that
output and the mean function of `g`. -/
def MultiGpMean (g : MultiGpState E) (d : List (List XR × List XR)) : Prop :=
  ∀ xs ys, xs.length = ys.length → d = finPairs xs ys →
    (xs = [] → 0 < g.dimOut → ∀ v, ∃ m, MultiGp.mu g v = some m ∧
      ∀ (c : Nat) (s : GpState E.sub), g.models[c]? = some s → m[c]? = some (E.M.op g.mf v (fun _ => 0) c)) ∧
    (∀ din dout, DataSet xs ys din dout → ∀ v, ∃ m, MultiGp.mu g v = some m ∧ m.length = dout ∧
      ∀ (c : Nat) (s : GpState E.sub), g.models[c]? = some s →
        m[c]? = some (postMean s.kf.op (MultiGp.meanFn g.mf ys dout) (s.kf.noise + 1e-8) xs ys v c))

end Limbo
