import Verif.Model.Gp
import Verif.Model.GradOpt
import Verif.Basic.Xt

/-!
Hyper-parameter optimizers: model/gp/{kernel_lf_opt,kernel_mean_lf_opt,mean_lf_opt,kernel_loo_opt,no_lf_opt}.hpp.

The optimizer works on `XR` numbers (reals plus NaN and infinities).  Simplifications: parameters that are NaN or infinite make the
criterion and its gradient NaN (as the kernel matrix is then NaN); an assertion that fails inside the criterion is reported as a missing
gradient, which makes every gradient-based optimizer fail; a non-finite vector returned by the optimizer makes the whole call fail,
because the GP model has exact real entries.  `J p` is the content of uninitialised memory during the evaluation at `p`, `j` after the
optimization.  The copies `GP gp(_original_gp)` are modelled by the purity of the operations.
-/

namespace Limbo

/-- The finite entries of a vector, `none` if some entry is not finite. -/
def reals? : List XR → Option (List ℝ)
  | [] => some []
  | Xt.fin x :: l => (reals? l).map (x :: ·)
  | _ :: _ => none

namespace Gp

variable {E : GpEnv}

/-- Body of the four functors to optimize: set the parameters and recompute (`upd`), compute the criterion (`val`) and its gradient
(`grad`) — kernel_lf_opt.hpp:77-92, kernel_mean_lf_opt.hpp:84-103, mean_lf_opt.hpp:79-95, kernel_loo_opt.hpp:77-92. -/
noncomputable def hpObj (upd : List ℝ → Option (GpState E)) (val : GpState E → Option (GpState E × ℝ)) (grad : GpState E → Option (List ℝ)) :
    ObjFn XR := fun p wantGrad =>
  match reals? p with
  | none => ((Xt.nan : Xt ℝ), some (p.map fun _ => (Xt.nan : Xt ℝ)))
  | some q =>
    match (upd q).bind val with
    | none => ((Xt.nan : Xt ℝ), none)
    | some (u, v) => (XR.fin v, if wantGrad then (grad u).map fun g => g.map XR.fin else none)

/-- The calls shared by the four `operator()`: optimize without bounds from the current parameters, set the result and recompute
(`upd`), evaluate the criterion once more (`val`) — kernel_lf_opt.hpp:60-69, kernel_mean_lf_opt.hpp:60-78, mean_lf_opt.hpp:60-69,
kernel_loo_opt.hpp:60-69. -/
noncomputable def hpRun (O : Optz XR) (obj : ObjFn XR) (init : List ℝ) (upd : List ℝ → Option (GpState E))
    (val : GpState E → Option (GpState E × ℝ)) : Option (GpState E) :=
  (O obj (init.map XR.fin) false).bind fun p => (reals? p).bind fun q => (upd q).bind fun u => (val u).map (·.1)

/-- `gp.kernel_function().set_h_params(params); gp.recompute(false);` — kernel_lf_opt.hpp:66-67, 80-82, kernel_loo_opt.hpp:66-67,
80-82.  A vector that is too short fails an Eigen assertion. -/
noncomputable def updKernel (s : GpState E) (junk : Nat → Nat → ℝ) (p : List ℝ) : Option (GpState E) :=
  if s.kf.hParamsSize E.KP ≤ p.length then recompute junk (setKernelParams s p) false true else none

/-- `gp.mean_function().set_h_params(params); gp.recompute(true, false);` — mean_lf_opt.hpp:66-67, 82-84. -/
noncomputable def updMean (s : GpState E) (junk : Nat → Nat → ℝ) (p : List ℝ) : Option (GpState E) :=
  if E.M.hSize s.mf ≤ p.length then recompute junk (setMeanParams s p) true false else none

/-- `set_h_params(params.head(…))`, `set_h_params(params.tail(…))`, `gp.recompute(true)` — kernel_mean_lf_opt.hpp:72-75, 87-90. -/
noncomputable def updBoth (s : GpState E) (junk : Nat → Nat → ℝ) (p : List ℝ) : Option (GpState E) :=
  let k := s.kf.hParamsSize E.KP
  let m := E.M.hSize s.mf
  if k ≤ p.length ∧ m ≤ p.length then
    recompute junk (setMeanParams (setKernelParams s (p.take k)) (p.drop (p.length - m))) true true
  else none

/-- `gp.compute_kernel_grad_log_lik()` as a vector of `h_params_size()` entries. -/
noncomputable def gradKernelVec (u : GpState E) : Option (List ℝ) :=
  (kernelGradLogLik u).map fun r => (List.range (u.kf.hParamsSize E.KP)).map r.2

/-- `gp.compute_mean_grad_log_lik()` as a vector. -/
noncomputable def gradMeanVec (u : GpState E) : Option (List ℝ) :=
  (meanGradLogLik u).map fun r => (List.range (E.M.hSize u.mf)).map r.2

/-- The stacked gradient — kernel_mean_lf_opt.hpp:97-100 (the second call works on the object the first one has cached into). -/
noncomputable def gradBothVec (u : GpState E) : Option (List ℝ) :=
  (kernelGradLogLik u).bind fun r => (gradMeanVec r.1).map fun gm => (List.range (u.kf.hParamsSize E.KP)).map r.2 ++ gm

/-- `gp.compute_kernel_grad_log_loo_cv()` as a vector. -/
noncomputable def gradLooVec (u : GpState E) : Option (List ℝ) :=
  (kernelGradLogLoo u).map fun r => (List.range (u.kf.hParamsSize E.KP)).map r.2

/-- `KernelLFOpt::operator()` — kernel_lf_opt.hpp:60-69. -/
noncomputable def kernelLFOpt (O : Optz XR) (J : List ℝ → Nat → Nat → ℝ) (j : Nat → Nat → ℝ) (s : GpState E) : Option (GpState E) :=
  hpRun O (hpObj (fun p => updKernel s (J p) p) computeLogLik gradKernelVec) (s.kf.hParams E.KP) (updKernel s j) computeLogLik

/-- `KernelLooOpt::operator()` — kernel_loo_opt.hpp:60-69. -/
noncomputable def kernelLooOpt (O : Optz XR) (J : List ℝ → Nat → Nat → ℝ) (j : Nat → Nat → ℝ) (s : GpState E) : Option (GpState E) :=
  hpRun O (hpObj (fun p => updKernel s (J p) p) computeLogLoo gradLooVec) (s.kf.hParams E.KP) (updKernel s j) computeLogLoo

/-- `MeanLFOpt::operator()` — mean_lf_opt.hpp:60-69; the functor works on a copy whose inverse covariance is computed first
(lines 75-77). -/
noncomputable def meanLFOpt (O : Optz XR) (J : List ℝ → Nat → Nat → ℝ) (j : Nat → Nat → ℝ) (s : GpState E) : Option (GpState E) :=
  (computeInvKernel s).bind fun s0 =>
    hpRun O (hpObj (fun p => updMean s0 (J p) p) computeLogLik gradMeanVec) (E.M.hParams s.mf) (updMean s j) computeLogLik

/-- `KernelMeanLFOpt::operator()` — kernel_mean_lf_opt.hpp:60-78. -/
noncomputable def kernelMeanLFOpt (O : Optz XR) (J : List ℝ → Nat → Nat → ℝ) (j : Nat → Nat → ℝ) (s : GpState E) : Option (GpState E) :=
  hpRun O (hpObj (fun p => updBoth s (J p) p) computeLogLik gradBothVec) (s.kf.hParams E.KP ++ E.M.hParams s.mf) (updBoth s j) computeLogLik

/-- `NoLFOpt::operator()` always fails its assertion — no_lf_opt.hpp:57-61. -/
def noLFOpt (_ : GpState E) : Option (GpState E) := none

end Gp

end Limbo
