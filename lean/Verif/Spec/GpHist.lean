import Verif.Model.Gp
import Verif.Spec.Gp
import Verif.Spec.LinAlg

/-!
What a user who calls a GP should believe about it after a sequence of calls.

`GpAbs` is the user's bookkeeping: the data given so far and four yes/no facts.  It refers to no internal quantity of the GP:

* `k`: the covariance factor matches the data and the kernel parameters (so the variance is right);
* `m`: the centred observations match the data and the mean function;
* `a`: the weights match all of these (so the mean prediction is right);
* `i`: a cached inverse covariance, if any, may be trusted.
-/

namespace Limbo

/-- States a kernel object can be in after construction for `d`-dimensional inputs and any number of parameter changes. -/
inductive KReach (I : KernelImpl) (P : KernelParams) (d : Nat) : BaseK I → Prop
  | new : KReach I P d (BaseK.mk' P d)
  | set {k : BaseK I} (p : List ℝ) : KReach I P d k → k.hParamsSize P ≤ p.length → KReach I P d (k.setHParams P p)

/-- What the GP relies on: the kernel is a covariance function whatever its parameters, the configured noise is a variance, and
Eigen's LLT is correct. -/
structure LawfulEnv (E : GpEnv) : Prop where
  llt : LltContract E.llt
  noise : 0 ≤ E.KP.noise
  cov : ∀ d k, KReach E.K E.KP d k → Covariance (E.K.kernel k.inner) d

/-- The user's bookkeeping. -/
structure GpAbs where
  xs : List (List ℝ)
  ys : List (List ℝ)
  k : Bool
  m : Bool
  a : Bool
  i : Bool

/-- A new GP. -/
def GpAbs.init : GpAbs := ⟨[], [], true, true, true, true⟩

/-- Rows of a matrix. -/
def rowsOf (o : Mat) : List (List ℝ) := (List.range o.rows).map fun i => (List.range o.cols).map fun c => o.e i c

/-- How each call changes the bookkeeping. -/
def GpAbs.step (A : GpAbs) : Gp.Op → GpAbs
  | .compute xs ys ck => ⟨xs, ys, ck, true, ck, ck⟩
  | .add x y => { A with xs := A.xs ++ [x], ys := A.ys ++ [y], m := true, a := A.k, i := true }
  | .recompute um uk => { A with m := A.m || um, k := A.k || uk, a := (A.m || um) && (A.k || uk), i := A.i || uk }
  | .setKernelParams _ => { A with k := A.k && A.xs.isEmpty, a := A.a && A.xs.isEmpty, i := A.i && A.xs.isEmpty }
  | .setMeanParams _ => { A with m := A.m && A.xs.isEmpty, a := A.a && A.xs.isEmpty }
  | .computeInvKernel => { A with i := A.k }
  | .computeLogLik => A
  | .kernelGradLogLik | .meanGradLogLik | .computeLogLoo | .kernelGradLogLoo => { A with i := A.i && A.k }
  | .load s r => ⟨s.samples, rowsOf s.observations, r, r, r, r⟩

/-- The bookkeeping after a sequence of calls. -/
def GpAbs.run (A : GpAbs) (ops : List (Gp.Op × (Nat → Nat → ℝ))) : GpAbs := ops.foldl (fun A o => A.step o.1) A

/-- An archive that is read must contain a data set (`load` does not check it). -/
def Gp.Op.Sane : Gp.Op → Prop
  | .load s _ => ∃ din dout, DataSet s.samples (rowsOf s.observations) din dout
  | _ => True

/-- Arguments a caller must respect (otherwise an assertion fails): matching sizes, and operations that reuse a factor or centred
observations only when these are valid.  (Parameter vectors must also be long enough, which depends on the kernel and mean.) -/
def GpAbs.Callable (A : GpAbs) : Gp.Op → Prop
  | .compute xs ys _ => ∃ din dout, DataSet xs ys din dout
  | .add x y => ∃ din dout, DataSet (A.xs ++ [x]) (A.ys ++ [y]) din dout
  | .recompute um uk => A.xs ≠ [] ∧ (um ∨ A.m) ∧ (uk ∨ A.k)
  | .setKernelParams _ | .setMeanParams _ => True
  | .computeInvKernel | .computeLogLik | .kernelGradLogLik | .computeLogLoo | .kernelGradLogLoo => A.xs ≠ [] ∧ A.k ∧ A.m ∧ A.a ∧ A.i
  | .meanGradLogLik => False
  | .load _ _ => False

/-- The prior mean function, given the observations `ys` with `dout` outputs (some mean functions use the average observation). -/
noncomputable def Gp.meanFn {E : GpEnv} (mf : E.M.St) (ys : List (List ℝ)) (dout : Nat) (v : List ℝ) (c : Nat) : ℝ :=
  E.M.op mf v (fun c => if c < dout then dataMeanOf ys c else 0) c

/-- `st` is the state of a GP, built with either constructor, after some calls that did not fail; `A` is the user's bookkeeping. -/
def GpReach (E : GpEnv) (A : GpAbs) (st : GpState E) : Prop :=
  ∃ (u : ℝ × ℝ) (ops : List (Gp.Op × (Nat → Nat → ℝ))) (start : GpState E),
    (start = Gp.new E u ∨ ∃ din dout, start = Gp.newDims E u din dout) ∧ (∀ o ∈ ops, o.1.Sane) ∧
    Gp.run start ops = some st ∧ A = GpAbs.init.run ops

/-- Everything a user set is reflected in the fit. -/
def GpAbs.UpToDate (A : GpAbs) : Prop := A.xs ≠ [] ∧ A.k = true ∧ A.m = true ∧ A.a = true

/-- Two GPs with `n` samples and `dout` outputs hold the same data, factor, weights and centring and give the same predictions and
likelihood. -/
structure SameFit {E : GpEnv} (s t : GpState E) (n dout : Nat) : Prop where
  samples : Gp.samplesOf s = Gp.samplesOf t
  observations : Gp.observationsOf s = Gp.observationsOf t
  rows : s.L.rows = n ∧ t.L.rows = n ∧ s.alpha.rows = n ∧ t.alpha.rows = n ∧ s.meanVector.rows = n ∧ t.meanVector.rows = n
  cols : s.L.cols = n ∧ t.L.cols = n ∧ s.alpha.cols = dout ∧ t.alpha.cols = dout ∧ s.meanVector.cols = dout ∧ t.meanVector.cols = dout
  factor : ∀ i < n, ∀ j < n, s.L.e i j = t.L.e i j
  weights : ∀ i < n, ∀ c < dout, s.alpha.e i c = t.alpha.e i c
  meanVector : ∀ i < n, ∀ c < dout, s.meanVector.e i c = t.meanVector.e i c
  mu : ∀ v, ∃ m m', Gp.mu s v = some m ∧ Gp.mu t v = some m' ∧ ∀ c < dout, m c = m' c
  sigma : ∀ v, ∃ r, Gp.sigma s v = some r ∧ Gp.sigma t v = some r
  logLik : ∃ r, (Gp.computeLogLik s).map (·.2) = some r ∧ (Gp.computeLogLik t).map (·.2) = some r

end Limbo
