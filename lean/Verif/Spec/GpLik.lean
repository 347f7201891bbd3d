import Verif.Spec.GpHist

/-!
The functions hyper-parameter optimization maximises, written as the sequence of calls a user would make, and the textbook
leave-one-out criterion.
-/

namespace Limbo

open Matrix

variable {E : GpEnv}

/-- `kernel_function().set_h_params(p); recompute(false); compute_log_lik()`. -/
noncomputable def kernelLik (junk : Nat → Nat → ℝ) (s : GpState E) (p : List ℝ) : Option ℝ :=
  (Gp.recompute junk (Gp.setKernelParams s p) false true).bind fun u => (Gp.computeLogLik u).map (·.2)

/-- `kernel_function().set_h_params(p); recompute(false); compute_log_loo_cv()`. -/
noncomputable def kernelLoo (junk : Nat → Nat → ℝ) (s : GpState E) (p : List ℝ) : Option ℝ :=
  (Gp.recompute junk (Gp.setKernelParams s p) false true).bind fun u => (Gp.computeLogLoo u).map (·.2)

/-- `mean_function().set_h_params(p); recompute(true, false); compute_log_lik()`. -/
noncomputable def meanLik (junk : Nat → Nat → ℝ) (s : GpState E) (p : List ℝ) : Option ℝ :=
  (Gp.recompute junk (Gp.setMeanParams s p) true false).bind fun u => (Gp.computeLogLik u).map (·.2)

/-- Log-density at `y` of the normal distribution with mean `m` and variance `v`. -/
noncomputable def gaussLogPdf (m v y : ℝ) : ℝ := -(y - m) ^ 2 / (2 * v) - 1 / 2 * Real.log v - 1 / 2 * Real.log (2 * Real.pi)

/-- The leave-one-out log predictive density of output `c`: every observation is predicted by the GP with the same covariance and mean
functions fitted to the other data (Rasmussen & Williams, eq. 5.10 and 5.11); the predicted observation has variance `postVar + s`. -/
noncomputable def logLoo (k : List ℝ → List ℝ → ℝ) (m : List ℝ → Nat → ℝ) (s : ℝ) (xs ys : List (List ℝ)) (c : Nat) : ℝ :=
  ∑ i : Fin xs.length, gaussLogPdf (postMean k m s (xs.eraseIdx i) (ys.eraseIdx i) xs[i] c) (postVar k s (xs.eraseIdx i) xs[i] + s)
    (at' (ys.getD i []) c)

end Limbo
