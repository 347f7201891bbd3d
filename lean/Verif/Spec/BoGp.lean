import Verif.Model.BoGp
import Verif.Spec.Bo
import Verif.Spec.GpHist
import Verif.Spec.Mean

/-! Specification of "the GP holds these data and predicts from them". -/

namespace Limbo

open Gp

variable {E : GpEnv}

/-- Pairs of finite vectors. -/
def finPairs (xs ys : List (List ℝ)) : List (List XR × List XR) := (xs.zip ys).map fun p => (p.1.map XR.fin, p.2.map XR.fin)

/-- The variance a GP reports: the posterior variance, set to zero when at most `DBL_EPSILON`, plus the noise. -/
noncomputable def reportedVar (k : List ℝ → List ℝ → ℝ) (noise : ℝ) (xs : List (List ℝ)) (v : List ℝ) : ℝ :=
  (if postVar k (noise + 1e-8) xs v ≤ 2 ^ (-52 : ℤ) then 0 else postVar k (noise + 1e-8) xs v) + noise

/-- The GP `g` holds exactly the data `d` (finite vectors, in this order), and its predictions at every point `v` are

* without data: the prior mean and variance;
* with data: the mean and variance of the Gaussian process posterior given `d`,

for the kernel and mean function `g` has, whose hyper-parameters are the defaults or came from some parameter change. -/
def GpFits (g : GpState E) (d : List (List XR × List XR)) : Prop :=
  ∃ xs ys, xs.length = ys.length ∧ d = finPairs xs ys ∧ samplesOf g = xs ∧ observationsOf g = ys ∧
    (xs = [] → ∀ v, query g v = some (fun c => E.M.op g.mf v (fun _ => 0) c, g.kf.op v v + g.kf.noise)) ∧
    (xs ≠ [] → ∃ din dout, DataSet xs ys din dout ∧ KReach E.K E.KP din g.kf ∧ MReach E.M dout g.mf ∧
      ∀ v, ∃ m, query g v = some (m, reportedVar g.kf.op g.kf.noise xs v) ∧
        ∀ c < dout, m c = postMean g.kf.op (meanFn g.mf ys dout) (g.kf.noise + 1e-8) xs ys v c)

/-- A point of the right dimension without NaN or infinite coordinates. -/
def PointOk (d : Nat) (x : List XR) : Prop := AllFin x ∧ x.length = d

/-- An objective with `din` inputs that returns `dout` numbers (of any kind) or throws. -/
def ObjectiveOk {M : Type} (din dout : Nat) (f : StateFun XR M) : Prop :=
  f.dimIn = din ∧ ∀ tr x v, f.call tr x = .ret v → v.length = dout

/-- A call a careful user makes. -/
def BoOpOk {M : Type} (din dout : Nat) : BoOp XR M → Prop
  | .optimize f _ _ _ => ObjectiveOk din dout f
  | .addNewSample s v => PointOk din s ∧ v.length = dout
  | .evalAndAdd f x => ObjectiveOk din dout f ∧ PointOk din x

/-- The moment at which statistics are written, seen from the optimizer: there is a newest evaluation (a good point, finite values), which
the model does not know yet, and the model predicts (in the sense of `F`) from all the others. -/
def StatMomentFor {M : Type} (F : M → List (List XR × List XR) → Prop) (din : Nat) (st : BoState XR M) : Prop :=
  st.observations.length = st.samples.length ∧ ∃ others x y, st.samples.zip st.observations = others ++ [(x, y)] ∧ PointOk din x ∧ AllFin y ∧
    F st.model others

/-- The same with a GP. -/
def StatMoment (din : Nat) (st : BoState XR (GpState E)) : Prop := StatMomentFor GpFits din st

/-- Components that do their job: the initialiser and the optimizer of the acquisition function give points of the right dimension,
criteria and statistics do not fail, and neither does the hyper-parameter optimizer if it is used. -/
structure ComponentsOk (P : BoParams XR (GpState E)) (hp : HpFunctor E) (din dout : Nat) : Prop where
  din_pos : 0 < din
  dout_pos : 0 < dout
  init : ∀ st, ∃ pts, P.initPts st din = some pts ∧ ∀ x ∈ pts, PointOk din x
  inner : ∀ st afun, GpFits st.model (st.samples.zip st.observations) →
    (∃ y, P.acquiOpt st (fun x g => P.acqui st.model st.currentIteration afun x g) (P.startPt st din) P.bounded = .point y ∧ PointOk din y) ∨
    P.acquiOpt st (fun x g => P.acqui st.model st.currentIteration afun x g) (P.startPt st din) P.bounded = .threw
  stop : ∀ c ∈ P.stop, ∀ st afun, GpFits st.model (st.samples.zip st.observations) → c st afun ≠ none
  stats : ∀ s ∈ P.stats, ∀ st afun, StatMoment din st → s st afun ≠ none
  hp : 0 < P.hpPeriod → ∀ A g, GpReach E A g → A.UpToDate → A.i = true → hp.run g ≠ none

/-- The same without the optimizer of the acquisition function. -/
structure PartsOk (P : BoParams XR (GpState E)) (hp : HpFunctor E) (din dout : Nat) : Prop where
  din_pos : 0 < din
  dout_pos : 0 < dout
  init : ∀ st, ∃ pts, P.initPts st din = some pts ∧ ∀ x ∈ pts, PointOk din x
  stop : ∀ c ∈ P.stop, ∀ st afun, GpFits st.model (st.samples.zip st.observations) → c st afun ≠ none
  stats : ∀ s ∈ P.stats, ∀ st afun, StatMoment din st → s st afun ≠ none
  hp : 0 < P.hpPeriod → ∀ A g, GpReach E A g → A.UpToDate → A.i = true → hp.run g ≠ none

/-- Components that do their job with a model that predicts in the sense of `F`. -/
structure ComponentsFor {M : Type} (F : M → List (List XR × List XR) → Prop) (P : BoParams XR M) (din dout : Nat) : Prop where
  din_pos : 0 < din
  dout_pos : 0 < dout
  init : ∀ st, ∃ pts, P.initPts st din = some pts ∧ ∀ x ∈ pts, PointOk din x
  inner : ∀ st afun, F st.model (st.samples.zip st.observations) →
    (∃ y, P.acquiOpt st (fun x g => P.acqui st.model st.currentIteration afun x g) (P.startPt st din) P.bounded = .point y ∧ PointOk din y) ∨
    P.acquiOpt st (fun x g => P.acqui st.model st.currentIteration afun x g) (P.startPt st din) P.bounded = .threw
  stop : ∀ c ∈ P.stop, ∀ st afun, F st.model (st.samples.zip st.observations) → c st afun ≠ none
  stats : ∀ s ∈ P.stats, ∀ st afun, StatMomentFor F din st → s st afun ≠ none

end Limbo
