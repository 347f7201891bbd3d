import Verif.Spec.GpHist
import Verif.Model.Acqui
import Verif.Spec.Acqui

/-! The textbook prediction of a fitted GP, as used in the statements about acquisition functions. -/

namespace Limbo

variable {E : GpEnv}

/-- The posterior mean at `v`, as a vector with `dout` components. -/
noncomputable def predMean (st : GpState E) (A : GpAbs) (dout : Nat) (v : List ℝ) : List ℝ :=
  (List.range dout).map (postMean st.kf.op (Gp.meanFn st.mf A.ys dout) (st.kf.noise + 1e-8) A.xs A.ys v)

/-- The posterior variance at `v` (set to zero when at most `DBL_EPSILON`) plus the noise. -/
noncomputable def predVar (st : GpState E) (A : GpAbs) (v : List ℝ) : ℝ :=
  (if postVar st.kf.op (st.kf.noise + 1e-8) A.xs v ≤ 2 ^ (-52 : ℤ) then 0 else postVar st.kf.op (st.kf.noise + 1e-8) A.xs v) + st.kf.noise

/-- States of an `EI` object that was only ever used with the model `m` and the aggregator `afun`. -/
inductive EiReach (m : AModel) (afun : List ℝ → ℝ) (jitter : ℝ) : Acqui.EiSt → Prop
  | new (u : ℝ) : EiReach m afun jitter (.new u)
  | call {s s' : Acqui.EiSt} {v : List ℝ} {g : Bool} {y : ℝ} : EiReach m afun jitter s → Acqui.ei m afun jitter s v g = some (s', y) →
      EiReach m afun jitter s'

/-- States of an `ECI` object that was only ever used with the models `m`, `c` and the aggregator `afun`. -/
inductive EciReach (m c : AModel) (afun : List ℝ → ℝ) (jitter : ℝ) : Acqui.EiSt → Prop
  | new (u : ℝ) : EciReach m c afun jitter (.new u)
  | call {s s' : Acqui.EiSt} {v : List ℝ} {g : Bool} {y : ℝ} : EciReach m c afun jitter s → Acqui.eci m c afun jitter s v g = some (s', y) →
      EciReach m c afun jitter s'

/-- The value of the best prediction at the samples of a model whose mean prediction is `f`. -/
def IsBestPrediction (m : AModel) (afun : List ℝ → ℝ) (f : List ℝ → List ℝ) (fmax : ℝ) : Prop :=
  IsGreatest {y | ∃ x ∈ m.samples, y = afun (f x)} fmax

/-- The probability of feasibility according to the constraint model `c`: the probability that the aggregated constraint value is at least
1, taken to be 1 without data or without uncertainty. -/
noncomputable def feasibility (c : AModel) (afun : List ℝ → ℝ) (mu : List ℝ) (var : ℝ) : ℝ :=
  open Classical in if c.samples = [] ∨ √var < 1e-10 then 1 else probAtLeast (afun mu) var 1

end Limbo
