import Verif.Model.HpOpt

/-!
`limbo::model::MultiGP` (model/multi_gp.hpp) over exact real numbers, with `model::GP` for the sub-models.

`none` is a failed assertion.  `tools::par::loop` runs independent iterations that write to different sub-models; it is modelled by the
sequential loop (its schedule independence is C25).
-/

namespace Limbo

/-- The sub-models' template arguments: same kernel, `mean::NullFunction` — multi_gp.hpp:63. -/
def GpEnv.sub (E : GpEnv) : GpEnv := { E with M := nullMean }

/-- Members of `MultiGP` — multi_gp.hpp:393-398. -/
structure MultiGpState (E : GpEnv) where
  models : List (GpState E.sub)
  dimIn : Int
  dimOut : Int
  mf : E.M.St
  obs : List (List ℝ)
  meanObs : Nat → ℝ

/-- Uninitialised memory during a call: matrices of sub-model `i`, and the two numbers a new sub-model does not initialise. -/
structure MultiJunk where
  mat : Nat → Nat → Nat → ℝ
  num : Nat → ℝ × ℝ

/-- The loop `for i: out[i] = f(i, in[i])`, failing when an iteration fails. -/
def loopM {σ β : Type} (f : Nat → σ → Option β) : Nat → List σ → Option (List β)
  | _, [] => some []
  | i, s :: l => (f i s).bind fun b => (loopM f (i + 1) l).map (b :: ·)

namespace MultiGp

variable {E : GpEnv}

/-- New sub-models with one output — multi_gp.hpp:73-76, 93-97, 147-150. -/
noncomputable def newModels (E : GpEnv) (u : Nat → ℝ × ℝ) (din dout : Nat) : List (GpState E.sub) :=
  (List.range dout).map fun i => Gp.newDims E.sub (u i) din 1

/-- `MultiGP()` — multi_gp.hpp:66. -/
def new (E : GpEnv) : MultiGpState E := ⟨[], -1, -1, E.M.new 1, [], fun _ => 0⟩

/-- `MultiGP(dim_in, dim_out)` — multi_gp.hpp:69-77. -/
noncomputable def newDims (E : GpEnv) (u : Nat → ℝ × ℝ) (din dout : Nat) : MultiGpState E :=
  ⟨newModels E u din dout, din, dout, E.M.new dout, [], fun _ => 0⟩

/-- `dim_in()` — multi_gp.hpp:234-238; `none` is the failed assertion. -/
def dimIn? (st : MultiGpState E) : Option Int := if st.dimIn ≠ -1 then some st.dimIn else none

/-- `dim_out()` — multi_gp.hpp:241-245. -/
def dimOut? (st : MultiGpState E) : Option Int := if st.dimOut ≠ -1 then some st.dimOut else none

/-- `mean_observation()` — multi_gp.hpp:297-302. -/
def meanObservation (st : MultiGpState E) : Nat → ℝ := if st.obs.length > 0 then st.meanObs else fun _ => 0

/-- `_mean_function(v, *this)`, component `c`. -/
def meanAt (st : MultiGpState E) (v : List ℝ) (c : Nat) : ℝ := E.M.op st.mf v (meanObservation st) c

/-- The average of the observations — multi_gp.hpp:105-109, 163-167, 369-373: a vector with `d` components; adding a vector of another
size fails an assertion. -/
noncomputable def averageObs (obs : List (List ℝ)) (d : Nat) : Option (Nat → ℝ) :=
  if obs.any (fun y => decide (y.length ≠ d)) then none
  else some fun c => if c < d then (obs.foldl (fun acc y => acc + at' y c) 0) / obs.length else 0

/-- `compute(samples, observations, compute_kernel)` — multi_gp.hpp:80-127.  Observations of dimension 0 count as a failure, as for
`GP`. -/
noncomputable def compute (junk : MultiJunk) (st : MultiGpState E) (samples observations : List (List ℝ)) (computeKernel : Bool) :
    Option (MultiGpState E) :=
  if samples.length = 0 ∨ observations.length = 0 ∨ samples.length ≠ observations.length then none
  else
    let din := (samples.headD []).length
    let dout := (observations.headD []).length
    if dout = 0 then none
    else
      let mf := if st.dimOut ≠ dout then E.M.new dout else st.mf
      let models := if st.models.length ≠ dout then newModels E junk.num din dout else st.models
      (averageObs observations dout).bind fun avg =>
        let st : MultiGpState E := ⟨models, din, dout, mf, observations, avg⟩
        let obs := fun i => List.zipWith (fun x y => [at' y i - meanAt st x i]) samples observations
        (loopM (fun i g => Gp.compute (junk.mat i) g samples (obs i) computeKernel) 0 st.models).map fun ms => { st with models := ms }

/-- `add_sample(sample, observation)` — multi_gp.hpp:141-175. -/
noncomputable def addSample (junk : MultiJunk) (st : MultiGpState E) (x y : List ℝ) : Option (MultiGpState E) :=
  let st? : Option (MultiGpState E) :=
    if st.models.length = 0 then
      let st : MultiGpState E := { st with dimIn := (x.length : Int) }
      some (if st.dimOut ≠ (y.length : Int) then { st with dimOut := (y.length : Int), models := newModels E junk.num x.length y.length, mf := E.M.new y.length } else st)
    else if (x.length : Int) = st.dimIn ∧ (y.length : Int) = st.dimOut then some st else none
  st?.bind fun st =>
    if st.dimOut ≤ 0 then none
    else
      let obs := st.obs ++ [y]
      (averageObs obs st.dimOut.toNat).bind fun avg =>
        let st := { st with obs := obs, meanObs := avg }
        if (st.models.length : Int) ≠ st.dimOut then none
        else (loopM (fun i g => Gp.addSample (junk.mat i) g x [at' y i - meanAt st x i]) 0 st.models).map fun ms => { st with models := ms }

/-- `mu(v)` — multi_gp.hpp:205-217. -/
noncomputable def mu (st : MultiGpState E) (v : List ℝ) : Option (List ℝ) :=
  if st.dimOut ≤ 0 ∨ (st.models.length : Int) ≠ st.dimOut then none
  else loopM (fun i g => (Gp.mu g v).map fun m => m 0 + meanAt st v i) 0 st.models

/-- `sigma(v)` — multi_gp.hpp:222-231. -/
noncomputable def sigma (st : MultiGpState E) (v : List ℝ) : Option (List ℝ) :=
  if st.dimOut ≤ 0 ∨ (st.models.length : Int) ≠ st.dimOut then none
  else loopM (fun _ g => Gp.sigma g v) 0 st.models

/-- `query(v)` — multi_gp.hpp:182-198. -/
noncomputable def query (st : MultiGpState E) (v : List ℝ) : Option (List ℝ × List ℝ) :=
  if st.dimOut ≤ 0 ∨ (st.models.length : Int) ≠ st.dimOut then none
  else (loopM (fun i g => (Gp.query g v).map fun r => (r.1 0 + meanAt st v i, r.2)) 0 st.models).map fun l => (l.map (·.1), l.map (·.2))

/-- `recompute(update_obs_mean, update_full_kernel)` — multi_gp.hpp:254-266. -/
noncomputable def recompute (junk : MultiJunk) (st : MultiGpState E) (updObsMean updFullKernel : Bool) : Option (MultiGpState E) :=
  match st.models with
  | [] => some st
  | g :: _ =>
    if updObsMean then compute junk st g.samples st.obs updFullKernel
    else if (st.models.length : Int) ≠ st.dimOut then none
    else (loopM (fun i g => Gp.recompute (junk.mat i) g false updFullKernel) 0 st.models).map fun ms => { st with models := ms }

/-- `samples()` — multi_gp.hpp:269-273. -/
def samplesOf (st : MultiGpState E) : Option (List (List ℝ)) := st.models.head?.map (·.samples)

/-- `observations()` — multi_gp.hpp:276-279. -/
def observationsOf (st : MultiGpState E) : List (List ℝ) := st.obs

/-- `mean_function().set_h_params(p)`. -/
def setMeanParams (st : MultiGpState E) (p : List ℝ) : MultiGpState E := { st with mf := E.M.setH st.mf p }

/-- `gp_models()[i].kernel_function().set_h_params(p)`; a bad index or a short vector is a failure. -/
noncomputable def setKernelParams (st : MultiGpState E) (i : Nat) (p : List ℝ) : Option (MultiGpState E) :=
  (st.models[i]?).bind fun g =>
    if g.kf.hParamsSize E.KP ≤ p.length then some { st with models := st.models.set i (Gp.setKernelParams g p) } else none

/-- `multi_gp::ParallelLFOpt`: run the hyper-parameter optimizer `hp` on every sub-model — multi_gp/parallel_lf_opt.hpp:57-66. -/
def parallelOpt (hp : Nat → GpState E.sub → Option (GpState E.sub)) (st : MultiGpState E) : Option (MultiGpState E) :=
  (loopM hp 0 st.models).map fun ms => { st with models := ms }

/-- What `save(archive)` writes — multi_gp.hpp:323-339. -/
structure Saved where
  dims : Int × Int
  observations : List (List ℝ)
  meanParams : Option (List ℝ)
  subs : List Gp.Saved

/-- `save(archive)` — multi_gp.hpp:323-339. -/
def save (st : MultiGpState E) : Saved :=
  ⟨(st.dimIn, st.dimOut), st.obs, if E.M.hSize st.mf > 0 then some (E.M.hParams st.mf) else none, st.models.map Gp.save⟩

/-- `_gp_models.resize(d)`: the first `d` sub-models, new ones default-constructed — multi_gp.hpp:384. -/
noncomputable def resizeModels (u : Nat → ℝ × ℝ) (ms : List (GpState E.sub)) (d : Nat) : List (GpState E.sub) :=
  (List.range d).map fun i => ms.getD i (Gp.new E.sub (u i))

/-- `load(archive, recompute)` — multi_gp.hpp:354-390.  A missing object is a failure. -/
noncomputable def load (junk : MultiJunk) (st : MultiGpState E) (a : Saved) (recomp : Bool) : Option (MultiGpState E) :=
  let d := a.dims.2.toNat
  (averageObs a.observations d).bind fun avg =>
    let mf := E.M.new d
    let mf? : Option E.M.St :=
      if E.M.hSize mf > 0 then
        a.meanParams.bind fun p => if p.length = E.M.hSize mf then some (E.M.setH mf p) else none
      else some mf
    mf?.bind fun mf =>
      (loopM (fun i g => (a.subs[i]?).bind fun b => Gp.load (junk.mat i) g b false) 0 (resizeModels junk.num st.models d)).bind fun ms =>
        let st : MultiGpState E := ⟨ms, a.dims.1, a.dims.2, mf, a.observations, avg⟩
        if recomp then recompute junk st true true else some st

/-- Calls that change a `MultiGP`; `hpOpt` is `ParallelLFOpt` with `KernelLFOpt` or (`loo`) `KernelLooOpt` on the sub-models, with an
optimizer and uninitialised memory for each sub-model. -/
inductive Op where
  | compute (xs ys : List (List ℝ)) (computeKernel : Bool)
  | add (x y : List ℝ)
  | recompute (updObsMean updFullKernel : Bool)
  | setMeanParams (p : List ℝ)
  | setKernelParams (i : Nat) (p : List ℝ)
  | hpOpt (loo : Bool) (O : Nat → Optz XR) (J : Nat → List ℝ → Nat → Nat → ℝ)
  | load (a : Saved) (recomp : Bool)

/-- One call. -/
noncomputable def step (st : MultiGpState E) (op : Op) (junk : MultiJunk) : Option (MultiGpState E) :=
  match op with
  | .compute xs ys ck => compute junk st xs ys ck
  | .add x y => addSample junk st x y
  | .recompute um uk => recompute junk st um uk
  | .setMeanParams p => if E.M.hSize st.mf ≤ p.length then some (setMeanParams st p) else none
  | .setKernelParams i p => setKernelParams st i p
  | .hpOpt false O J => parallelOpt (fun i g => Gp.kernelLFOpt (O i) (J i) (junk.mat i) g) st
  | .hpOpt true O J => parallelOpt (fun i g => Gp.kernelLooOpt (O i) (J i) (junk.mat i) g) st
  | .load a r => load junk st a r

/-- A sequence of calls. -/
noncomputable def run (st : MultiGpState E) : List (Op × MultiJunk) → Option (MultiGpState E)
  | [] => some st
  | (op, junk) :: ops => (step st op junk).bind fun st => run st ops

end MultiGp

end Limbo
