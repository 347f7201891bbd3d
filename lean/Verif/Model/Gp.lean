import Mathlib.Analysis.SpecialFunctions.Log.Basic
import Mathlib.Analysis.Real.Pi.Bounds
import Verif.Model.Kernel

/-!
`limbo::model::GP` (model/gp.hpp) over exact real numbers.

Every operation returns `none` when the C++ fails an assertion (limbo's own or Eigen's size checks).  Matrices that Eigen leaves
uninitialised after a resize take the values given by the extra argument `junk`, which the theorems quantify over.
-/

namespace Limbo

open Finset

/-- Template arguments of `GP`: kernel class and its `Params::kernel`, mean class, and Eigen's Cholesky decomposition
(`llt n K i j` is entry `(i, j)` of `Eigen::LLT<MatrixXd>(K).matrixL()` for the `n × n` matrix `K`). -/
structure GpEnv where
  K : KernelImpl
  KP : KernelParams
  M : MeanImpl
  llt : Nat → (Nat → Nat → ℝ) → Nat → Nat → ℝ

/-- Members of `GP` — gp.hpp:514-535. -/
structure GpState (E : GpEnv) where
  dimIn : Int
  dimOut : Int
  kf : BaseK E.K
  mf : E.M.St
  samples : List (List ℝ)
  obs : Mat
  meanVector : Mat
  obsMean : Mat
  alpha : Mat
  meanObs : Nat → ℝ
  kernel : Mat
  invKernel : Mat
  L : Mat
  logLik : ℝ
  logLoo : ℝ
  invUpdated : Bool

namespace Gp
variable {E : GpEnv}

/-- `GP()` — gp.hpp:79-80.  The functors are default-constructed (`dim = 1`); `u` are the uninitialised `_log_lik` and
`_log_loo_cv`. -/
noncomputable def new (E : GpEnv) (u : ℝ × ℝ) : GpState E :=
  ⟨-1, -1, BaseK.mk' E.KP 1, E.M.new 1, [], .empty, .empty, .empty, .empty, fun _ => 0, .empty, .empty, .empty, u.1, u.2, false⟩

/-- `GP(dim_in, dim_out)` — gp.hpp:83-84. -/
noncomputable def newDims (E : GpEnv) (u : ℝ × ℝ) (dimIn dimOut : Nat) : GpState E :=
  ⟨dimIn, dimOut, BaseK.mk' E.KP dimIn, E.M.new dimOut, [], .empty, .empty, .empty, .empty, fun _ => 0, .empty, .empty, .empty,
    u.1, u.2, false⟩

/-- `dim_in()` — gp.hpp:194-198; `none` is the failed assertion. -/
def dimIn? (st : GpState E) : Option Int := if st.dimIn ≠ -1 then some st.dimIn else none

/-- `dim_out()` — gp.hpp:201-205. -/
def dimOut? (st : GpState E) : Option Int := if st.dimOut ≠ -1 then some st.dimOut else none

/-- `mean_observation()` — gp.hpp:226-231 (its assertion `_dim_out > 0` is checked in `computeObsMean`). -/
def meanObservation (st : GpState E) : Nat → ℝ := if st.samples.length > 0 then st.meanObs else fun _ => 0

/-- `_mean_function(v, *this)`, component `c`. -/
def meanAt (st : GpState E) (v : List ℝ) (c : Nat) : ℝ := E.M.op st.mf v (meanObservation st) c

/-- `_observations.colwise().mean()` — gp.hpp:109, 147, 500: a vector with one component per column (`0` beyond). -/
noncomputable def colMean (m : Mat) (c : Nat) : ℝ := if c < m.cols then (∑ i ∈ range m.rows, m.e i c) / m.rows else 0

/-- `_compute_obs_mean()` — gp.hpp:537-548.  Observations of dimension 0 count as a failure (`mean_observation()` asserts
`_dim_out > 0`). -/
def computeObsMean (junk : Nat → Nat → ℝ) (st : GpState E) : Option (GpState E) :=
  if st.samples = [] ∨ st.dimOut ≤ 0 then none
  else if st.samples.any (fun x => decide (x.length = 0) || decide ((x.length : Int) ≠ st.dimIn)) then none
  else
    let d := st.dimOut.toNat
    let mv := st.meanVector.resize st.samples.length d junk
    let mv := forN mv.rows (fun i mv => { mv with e := fun a c => if a = i then meanAt st (st.samples.getD i []) c else mv.e a c }) mv
    -- `_observations - _mean_vector` needs equal sizes
    if st.obs.rows = mv.rows ∧ st.obs.cols = mv.cols then
      some { st with meanVector := mv, obsMean := ⟨mv.rows, mv.cols, fun i c => st.obs.e i c - mv.e i c⟩ }
    else none

/-- `_compute_alpha()` — gp.hpp:605-611: two triangular solves, which need `_matrixL` and `_obs_mean` to have as many rows. -/
noncomputable def computeAlpha (st : GpState E) : Option (GpState E) :=
  if st.L.rows = st.obsMean.rows then
    some { st with alpha := ⟨st.obsMean.rows, st.obsMean.cols,
      fun i c => bsub st.L.e st.L.rows (fsub st.L.e fun i => st.obsMean.e i c) i⟩ }
  else none

/-- `_compute_full_kernel()` — gp.hpp:550-571. -/
noncomputable def computeFullKernel (junk : Nat → Nat → ℝ) (st : GpState E) : Option (GpState E) :=
  let n := st.samples.length
  let x := fun i => st.samples.getD i []
  let k := st.kernel.resize n n junk
  let k := forN n (fun i k => forN (i + 1) (fun j k => k.set i j (st.kf.opIJ (x i) (x j) i j)) k) k
  let k := forN n (fun i k => forN i (fun j k => k.set j i (k.e i j)) k) k
  let st := { st with kernel := k, L := ⟨n, n, E.llt n k.e⟩ }
  do
    let st ← computeAlpha st
    some { st with invUpdated := false }

/-- `_compute_incremental_kernel()` — gp.hpp:573-603. -/
noncomputable def computeIncrementalKernel (junk : Nat → Nat → ℝ) (st : GpState E) : Option (GpState E) :=
  let n := st.samples.length
  let x := fun i => st.samples.getD i []
  let k := st.kernel.conservativeResize n n junk
  let k := forN n (fun i k =>
    let k := k.set i (n - 1) (st.kf.opIJ (x i) (x (n - 1)) i (n - 1))
    k.set (n - 1) i (k.e i (n - 1))) k
  let l := st.L.conservativeResizeZero n n
  let l := forN (n - 1) (fun j l =>
    let lj := k.e (n - 1) j - ∑ q ∈ range j, l.e j q * l.e (n - 1) q
    l.set (n - 1) j (lj / l.e j j)) l
  let lj := k.e (n - 1) (n - 1) - ∑ q ∈ range (n - 1), l.e (n - 1) q * l.e (n - 1) q
  let l := l.set (n - 1) (n - 1) √lj
  do
    let st ← computeAlpha { st with kernel := k, L := l }
    some { st with invUpdated := false }

/-- Rebuild the functors when the dimensions change — gp.hpp:95-103 (`compute`) and gp.hpp:129-136 (`add_sample`). -/
noncomputable def adaptDims (st : GpState E) (din dout : Nat) : GpState E :=
  let st := if st.dimIn ≠ din then { st with dimIn := din, kf := BaseK.mk' E.KP din } else st
  if st.dimOut ≠ dout then { st with dimOut := dout, mf := E.M.new dout } else st

/-- `compute(samples, observations, compute_kernel)` — gp.hpp:87-116. -/
noncomputable def compute (junk : Nat → Nat → ℝ) (st : GpState E) (samples observations : List (List ℝ)) (computeKernel : Bool) :
    Option (GpState E) :=
  if samples.length = 0 ∨ observations.length = 0 ∨ samples.length ≠ observations.length then none
  else
    let din := (samples.headD []).length
    let dout := (observations.headD []).length
    let st := { adaptDims st din dout with samples := samples }
    -- `_observations.row(i) = observations[i]` needs equal sizes
    if observations.any (fun y => decide (y.length ≠ dout)) then none
    else
      let o := st.obs.resize observations.length dout junk
      let o := forN o.rows (fun i o => { o with e := fun a c => if a = i then at' (observations.getD i []) c else o.e a c }) o
      let st := { st with obs := o, meanObs := colMean o }
      (computeObsMean junk st).bind fun st => if computeKernel then computeFullKernel junk st else some st

/-- Append the data and recompute the observation mean — gp.hpp:142-147. -/
noncomputable def pushSample (junk : Nat → Nat → ℝ) (st : GpState E) (sample observation : List ℝ) : GpState E :=
  let o := st.obs.conservativeResize (st.obs.rows + 1) st.dimOut.toNat junk
  let o := { o with e := fun a c => if a = o.rows - 1 then at' observation c else o.e a c }
  { st with samples := st.samples ++ [sample], obs := o, meanObs := colMean o }

/-- `add_sample(sample, observation)` — gp.hpp:126-152. -/
noncomputable def addSample (junk : Nat → Nat → ℝ) (st : GpState E) (sample observation : List ℝ) : Option (GpState E) :=
  let st? : Option (GpState E) :=
    if st.samples = [] then some (adaptDims st sample.length observation.length)
    else if (sample.length : Int) = st.dimIn ∧ (observation.length : Int) = st.dimOut then some st
    else none
  st?.bind fun st => (computeObsMean junk (pushSample junk st sample observation)).bind (computeIncrementalKernel junk)

/-- `_compute_k(v)` — gp.hpp:626-632. -/
def computeK (st : GpState E) (v : List ℝ) (i : Nat) : ℝ := st.kf.op (st.samples.getD i []) v

/-- `std::numeric_limits<double>::epsilon()`. -/
noncomputable def dblEps : ℝ := 1 / 2 ^ 52

/-- `_mu(v, k)`, component `c` — gp.hpp:613-616. -/
def muK (st : GpState E) (v : List ℝ) (k : Nat → ℝ) (c : Nat) : ℝ :=
  ∑ i ∈ range st.samples.length, k i * st.alpha.e i c + meanAt st v c

/-- `_sigma(v, k)` — gp.hpp:618-624. -/
noncomputable def sigmaK (st : GpState E) (v : List ℝ) (k : Nat → ℝ) : ℝ :=
  let z := fsub st.L.e k
  let res := st.kf.op v v - ∑ i ∈ range st.samples.length, z i * z i
  if res ≤ dblEps then 0 else res

/-- The matrix sizes Eigen checks in `_mu`. -/
def muOk (st : GpState E) : Bool := decide (st.alpha.rows = st.samples.length)

/-- The matrix sizes Eigen checks in `_sigma`. -/
def sigmaOk (st : GpState E) : Bool := decide (st.L.rows = st.samples.length)

/-- `mu(v)` — gp.hpp:176-181. -/
def mu (st : GpState E) (v : List ℝ) : Option (Nat → ℝ) :=
  if st.samples.length = 0 then some (meanAt st v)
  else if muOk st then some (muK st v (computeK st v)) else none

/-- `sigma(v)` — gp.hpp:186-191. -/
noncomputable def sigma (st : GpState E) (v : List ℝ) : Option ℝ :=
  if st.samples.length = 0 then some (st.kf.op v v + st.kf.noise)
  else if sigmaOk st then some (sigmaK st v (computeK st v) + st.kf.noise) else none

/-- `query(v)` — gp.hpp:159-169. -/
noncomputable def query (st : GpState E) (v : List ℝ) : Option ((Nat → ℝ) × ℝ) :=
  if st.samples.length = 0 then some (meanAt st v, st.kf.op v v + st.kf.noise)
  else
    let k := computeK st v
    if muOk st ∧ sigmaOk st then some (muK st v k, sigmaK st v k + st.kf.noise) else none

/-- `recompute(update_obs_mean, update_full_kernel)` — gp.hpp:241-252. -/
noncomputable def recompute (junk : Nat → Nat → ℝ) (st : GpState E) (updObsMean updFullKernel : Bool) : Option (GpState E) :=
  if st.samples = [] then none
  else
    (if updObsMean then computeObsMean junk st else some st).bind fun st =>
      if updFullKernel then computeFullKernel junk st else computeAlpha st

/-- `compute_inv_kernel()` — gp.hpp:254-264. -/
noncomputable def computeInvKernel (st : GpState E) : Option (GpState E) :=
  let n := st.obsMean.rows
  if st.L.rows = n then
    some { st with
      invKernel := ⟨n, n, fun i j => bsub st.L.e n (fsub st.L.e fun a => if a = j then 1 else 0) i⟩
      invUpdated := true }
  else none

/-- `if (!_inv_kernel_updated) compute_inv_kernel();` — gp.hpp:290-292, 319-321, 342-344, 360-362. -/
noncomputable def ensureInv (st : GpState E) : Option (GpState E) := if st.invUpdated then some st else computeInvKernel st

/-- `compute_log_lik()` — gp.hpp:267-282.  The value is also stored. -/
noncomputable def computeLogLik (st : GpState E) : Option (GpState E × ℝ) :=
  let n := st.obsMean.rows
  let logdet := 2 * ∑ i ∈ range st.L.rows, Real.log (st.L.e i i)
  if st.obsMean.rows = st.alpha.rows ∧ st.obsMean.cols = st.alpha.cols then
    let a := ∑ c ∈ range st.obsMean.cols, ∑ i ∈ range n, st.obsMean.e i c * st.alpha.e i c
    let v := -0.5 * a - 0.5 * logdet - 0.5 * n * Real.log (2 * Real.pi)
    some ({ st with logLik := v }, v)
  else none

/-- `compute_kernel_grad_log_lik()`: the (possibly cache-filling) state and component `q` of the gradient — gp.hpp:285-311. -/
noncomputable def kernelGradLogLik (st : GpState E) : Option (GpState E × (Nat → ℝ)) := do
  let n := st.obsMean.rows
  let st ← ensureInv st
  let x := fun i => st.samples.getD i []
  if st.alpha.rows = st.invKernel.rows ∧ st.alpha.rows = n ∧ n ≤ st.samples.length then
    let w := fun i j => ∑ c ∈ range st.alpha.cols, st.alpha.e i c * st.alpha.e j c - st.invKernel.e i j
    let grad := forN n (fun i grad => forN (i + 1) (fun j grad =>
      let g := st.kf.gradIJ E.KP (x i) (x j) i j
      if i = j then (fun q => grad q + w i j * g q * 0.5) else fun q => grad q + w i j * g q) grad) (fun _ => (0 : ℝ))
    some (st, grad)
  else none

/-- `compute_mean_grad_log_lik()` — gp.hpp:314-330. -/
noncomputable def meanGradLogLik (st : GpState E) : Option (GpState E × (Nat → ℝ)) := do
  let n := st.obsMean.rows
  let st ← ensureInv st
  if st.invKernel.rows = n ∧ st.obsMean.rows = n ∧ n ≤ st.samples.length ∧ st.dimOut.toNat ≤ st.obsMean.cols then
    let row : Nat → Nat → (Nat → ℝ) → Option (Nat → ℝ) := fun io no grad => do
      let g ← E.M.grad st.mf (st.samples.getD no []) (meanObservation st)
      some fun q => grad q + (∑ a ∈ range n, st.obsMean.e a io * st.invKernel.e a no) * g io q
    let grad ← forN st.dimOut.toNat (fun io grad? => forN n (fun no grad? => do row io no (← grad?)) grad?) (some fun _ => (0 : ℝ))
    some (st, grad)
  else none

/-- `compute_log_loo_cv()` — gp.hpp:339-351. -/
noncomputable def computeLogLoo (st : GpState E) : Option (GpState E × ℝ) := do
  let st ← ensureInv st
  let n := st.invKernel.rows
  if st.alpha.rows = n then
    let invDiag := fun i => (st.invKernel.e i i)⁻¹
    let v := ∑ c ∈ range st.alpha.cols, ∑ i ∈ range n,
      (-0.5 * (st.alpha.e i c * st.alpha.e i c * invDiag i) - 0.5 * Real.log (invDiag i) - 0.5 * Real.log (2 * Real.pi))
    some ({ st with logLoo := v }, v)
  else none

/-- `compute_kernel_grad_log_loo_cv()` — gp.hpp:354-402. -/
noncomputable def kernelGradLogLoo (st : GpState E) : Option (GpState E × (Nat → ℝ)) := do
  let n := st.obsMean.rows
  let st ← ensureInv st
  let x := fun i => st.samples.getD i []
  if st.alpha.rows = n ∧ st.invKernel.rows = n ∧ n ≤ st.samples.length ∧ st.alpha.cols = st.dimOut.toNat then
    -- full_dk: lower triangle from the kernel, zeros above, then mirrored
    let low : Nat → Nat → Nat → ℝ := fun i j q => if j ≤ i then st.kf.gradIJ E.KP (x i) (x j) i j q else 0
    let fullDk : Nat → Nat → Nat → ℝ :=
      forN n (fun i dk => forN i (fun j dk => fun a b => if a = j ∧ b = i then dk i j else dk a b) dk) low
    let invDiag := fun i => (st.invKernel.e i i)⁻¹
    let grads : Nat → Nat → ℝ := fun q c =>
      let dK := fun i k => fullDk i k q
      let zeta := fun i k => ∑ a ∈ range n, st.invKernel.e i a * dK a k
      let zetaAlpha := fun i => ∑ a ∈ range n, zeta i a * st.alpha.e a c
      let zetaKdiag := fun i => ∑ a ∈ range n, zeta i a * st.invKernel.e a i
      ∑ i ∈ range n, (st.alpha.e i c * zetaAlpha i - 0.5 * ((1 + st.alpha.e i c * st.alpha.e i c * invDiag i) * zetaKdiag i)) * invDiag i
    some (st, fun q => ∑ c ∈ range st.dimOut.toNat, grads q c)
  else none

/-- `max_observation()` (first component) — gp.hpp:216-223: the largest coefficient; `maxCoeff` of an empty matrix asserts. -/
noncomputable def maxObservation (st : GpState E) : Option ℝ :=
  if h : (range st.obs.rows ×ˢ range st.obs.cols).Nonempty then
    some ((range st.obs.rows ×ˢ range st.obs.cols).sup' h fun ij => st.obs.e ij.1 ij.2)
  else none

/-- `samples()` — gp.hpp:417. -/
def samplesOf (st : GpState E) : List (List ℝ) := st.samples

/-- `observations()` — gp.hpp:420-428. -/
def observationsOf (st : GpState E) : List (List ℝ) :=
  (List.range st.obs.rows).map fun i => (List.range st.obs.cols).map fun c => st.obs.e i c

/-- `kernel_function().set_h_params(p)`: writes through the mutable reference — gp.hpp:209. -/
noncomputable def setKernelParams (st : GpState E) (p : List ℝ) : GpState E := { st with kf := st.kf.setHParams E.KP p }

/-- `mean_function().set_h_params(p)` — gp.hpp:213. -/
def setMeanParams (st : GpState E) (p : List ℝ) : GpState E := { st with mf := E.M.setH st.mf p }

/-! ## save and load -/

/-- The objects a GP writes to an archive — gp.hpp:447-460. -/
structure Saved where
  kernelParams : Option (List ℝ)
  meanParams : Option (List ℝ)
  samples : List (List ℝ)
  observations : Mat
  matrixL : Mat
  alpha : Mat

/-- `save(archive)` — gp.hpp:446-460: what is handed to the archive. -/
def save (st : GpState E) : Saved :=
  ⟨if st.kf.hParamsSize E.KP > 0 then some (st.kf.hParams E.KP) else none,
   if E.M.hSize st.mf > 0 then some (E.M.hParams st.mf) else none,
   st.samples, st.obs, st.L, st.alpha⟩

/-- `load(archive, recompute)` — gp.hpp:472-511, reading back the objects `a`.  A missing object is a failure, like a size
mismatch. -/
noncomputable def load (junk : Nat → Nat → ℝ) (st : GpState E) (a : Saved) (recomp : Bool) : Option (GpState E) :=
  if a.samples = [] then none
  else
    let din := (a.samples.headD []).length
    let kf : BaseK E.K := BaseK.mk' E.KP din
    let kf? : Option (BaseK E.K) :=
      if kf.hParamsSize E.KP > 0 then
        a.kernelParams.bind fun p => if p.length = kf.hParamsSize E.KP then some (kf.setHParams E.KP p) else none
      else some kf
    kf?.bind fun kf =>
    let dout := a.observations.cols
    let mf := E.M.new dout
    let mf? : Option E.M.St :=
      if E.M.hSize mf > 0 then
        a.meanParams.bind fun p => if p.length = E.M.hSize mf then some (E.M.setH mf p) else none
      else some mf
    mf?.bind fun mf =>
    let st := { st with samples := a.samples, obs := a.observations, dimIn := din, kf := kf, dimOut := dout, mf := mf,
                        meanObs := colMean a.observations }
    if recomp then recompute junk st true true
    else some { st with L := a.matrixL, alpha := a.alpha }

/-! ## histories -/

/-- The public operations of a GP that change its state. -/
inductive Op where
  | compute (xs ys : List (List ℝ)) (computeKernel : Bool)
  | add (x y : List ℝ)
  | recompute (updObsMean updFullKernel : Bool)
  | setKernelParams (p : List ℝ)
  | setMeanParams (p : List ℝ)
  | computeInvKernel
  | computeLogLik
  | kernelGradLogLik
  | meanGradLogLik
  | computeLogLoo
  | kernelGradLogLoo
  | load (a : Saved) (recomp : Bool)

/-- One call; `junk` is what Eigen leaves in freshly allocated coefficients during that call. -/
noncomputable def step (st : GpState E) (op : Op) (junk : Nat → Nat → ℝ) : Option (GpState E) :=
  match op with
  | .compute xs ys ck => compute junk st xs ys ck
  | .add x y => addSample junk st x y
  | .recompute um uk => recompute junk st um uk
  -- reading past the end of a too short parameter vector is an assertion failure
  | .setKernelParams p => if st.kf.hParamsSize E.KP ≤ p.length then some (setKernelParams st p) else none
  | .setMeanParams p => if E.M.hSize st.mf ≤ p.length then some (setMeanParams st p) else none
  | .computeInvKernel => computeInvKernel st
  | .computeLogLik => (computeLogLik st).map (·.1)
  | .kernelGradLogLik => (kernelGradLogLik st).map (·.1)
  | .meanGradLogLik => (meanGradLogLik st).map (·.1)
  | .computeLogLoo => (computeLogLoo st).map (·.1)
  | .kernelGradLogLoo => (kernelGradLogLoo st).map (·.1)
  | .load a r => load junk st a r

/-- A sequence of calls. -/
noncomputable def run (st : GpState E) : List (Op × (Nat → Nat → ℝ)) → Option (GpState E)
  | [] => some st
  | (op, junk) :: ops => (step st op junk).bind fun st => run st ops

end Gp

end Limbo
