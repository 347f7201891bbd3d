import Verif.Lemmas.Loo
import Verif.Props.GpSave

/-!
Gradients of the likelihood (C34, C35), the leave-one-out criterion (C36) and its gradient (C37).

`kernelLik`, `kernelLoo` and `meanLik` (Verif/Spec/GpLik.lean) are what a user gets by setting the parameters, recomputing and asking for
the value.
-/

namespace Limbo

open Finset Gp Matrix

variable {E : GpEnv} {A : GpAbs} {st s t : GpState E} {din dout : Nat}

/-- the covariance matrix as a function of one kernel parameter -/
theorem gram_mderiv (hE : LawfulEnv E) (hI : StdKernel E.K) (hk : KReach E.K E.KP din s.kf) (p : List ℝ) (hp : p.length = s.kf.hParamsSize E.KP)
    (q : Nat) (hq : q < p.length) (xs : List (List ℝ)) (hx : ∀ x ∈ xs, x.length = din) (D : Matrix (Fin xs.length) (Fin xs.length) ℝ)
    (hD : ∀ i j : Fin xs.length, D i j = (s.kf.setHParams E.KP p).gradIJ E.KP (xs.getD i []) (xs.getD j []) i j q) :
    MDeriv (fun t => toM xs.length (gramN (s.kf.setHParams E.KP (p.set q t)) xs)) D p[q] ∧ Dᵀ = D := by
  have h1 : MDeriv (fun t => toM xs.length (gramN (s.kf.setHParams E.KP (p.set q t)) xs)) D p[q] := by
    intro i j
    have := C44_kernel_gradient hI hk p hp q hq (xs.getD i []) (xs.getD j []) i j
    rw [← hD i j] at this
    exact this
  refine ⟨h1, ?_⟩
  ext i j
  have hsym : ∀ t, toM xs.length (gramN (s.kf.setHParams E.KP (p.set q t)) xs) j i = toM xs.length (gramN (s.kf.setHParams E.KP (p.set q t)) xs) i j := by
    intro t
    have hr : KReach E.K E.KP din (s.kf.setHParams E.KP (p.set q t)) := .set _ hk (by rw [List.length_set, hp])
    exact (gram_pd (kok_of_reach hE hr) hx).symm j j.2 i i.2
  have h2 := h1 j i
  simp only [hsym] at h2
  exact (h2.unique (h1 i j))

/-- **C34**: whatever the kernel parameters `p` one sets, after recomputing, `compute_kernel_grad_log_lik()` is the vector of
derivatives of the likelihood with respect to the parameters. -/
theorem C34_kernel_gradient_of_likelihood (hE : LawfulEnv E) (hI : StdKernel E.K) (hr : GpReach E A s) (hm : A.m = true) (hd : DataSet A.xs A.ys din dout)
    (p : List ℝ) (hp : p.length = s.kf.hParamsSize E.KP) (junk : Nat → Nat → ℝ) :
    ∃ u u' g, recompute junk (setKernelParams s p) false true = some u ∧ kernelGradLogLik u = some (u', g) ∧
      ∀ q (hq : q < p.length), ∃ f : ℝ → ℝ, (∀ t junk', kernelLik junk' s (p.set q t) = some (f t)) ∧ HasDerivAt f (g q) p[q] := by
  have T := hr.tracks hE
  obtain ⟨u, hu, Tu, hkf, hmf⟩ := setK_recompute hE T hd.nonempty hm p (le_of_eq hp.symm) junk
  obtain ⟨u', g, hg, hval⟩ := gradK_spec (A := ⟨A.xs, A.ys, true, true, true, true⟩) hE Tu ⟨hd.nonempty, rfl, rfl, rfl⟩ rfl hd
  refine ⟨u, u', g, hu, hg, ?_⟩
  intro q hq
  have hk := T.kreach (T.hasData hd)
  refine ⟨_, fun t junk' => kernelLik_value hE T hm hd (p.set q t) (by rw [List.length_set, hp]) junk', ?_⟩
  obtain ⟨h1, hsym⟩ := gram_mderiv hE hI hk p hp q hq A.xs hd.inputs (Matrix.of fun i j => (s.kf.setHParams E.KP p).gradIJ E.KP (A.xs.getD i []) (A.xs.getD j []) i j q)
    (fun _ _ => rfl)
  have hset : p.set q p[q] = p := List.set_getElem_self hq
  have hpd : PD A.xs.length (gramN (s.kf.setHParams E.KP p) A.xs) := gram_pd (kok_of_reach hE (.set p hk (le_of_eq hp.symm))) hd.inputs
  have := likOf_deriv h1 (by rw [hset]; exact hpd.det_pos.ne') (by rw [hset]; ext a b; exact hpd.symm b b.2 a a.2) dout (resid (meanFn s.mf A.ys dout) A.xs A.ys)
  refine this.congr_deriv ?_
  rw [hset, hval q, hkf, hmf]
  · rfl
  · intro i hi j hj
    rw [hkf]
    exact congrFun (congrFun hsym ⟨j, hj⟩) ⟨i, hi⟩

/-- **C34** for the parameters the GP currently has: on an up-to-date GP the gradient is the derivative at `h_params()`. -/
theorem C34_at_current_parameters (hE : LawfulEnv E) (hI : StdKernel E.K) (hn : E.KP.optimizeNoise = true → 0 < E.KP.noise) (hr : GpReach E A s)
    (hA : A.UpToDate) (hi : A.i = true) (hd : DataSet A.xs A.ys din dout) :
    ∃ s' g, kernelGradLogLik s = some (s', g) ∧
      ∀ q (hq : q < (s.kf.hParams E.KP).length), ∃ f : ℝ → ℝ, (∀ t junk, kernelLik junk s ((s.kf.hParams E.KP).set q t) = some (f t)) ∧
        HasDerivAt f (g q) (s.kf.hParams E.KP)[q] := by
  have T := hr.tracks hE
  have hk := T.kreach (T.hasData hd)
  have h45 := C45_kernel_parameters hI hk
  obtain ⟨s', g, hg, hval⟩ := gradK_spec hE T hA hi hd
  refine ⟨s', g, hg, ?_⟩
  intro q hq
  have hp := h45.1
  refine ⟨_, fun t junk' => kernelLik_value hE T hA.2.2.1 hd _ (by rw [List.length_set, hp]) junk', ?_⟩
  have hself : s.kf.setHParams E.KP (s.kf.hParams E.KP) = s.kf := h45.2.2 hn
  obtain ⟨h1, hsym⟩ := gram_mderiv hE hI hk _ hp q hq A.xs hd.inputs (Matrix.of fun i j => s.kf.gradIJ E.KP (A.xs.getD i []) (A.xs.getD j []) i j q)
    (fun _ _ => by rw [hself]; rfl)
  have hset : (s.kf.hParams E.KP).set q (s.kf.hParams E.KP)[q] = s.kf.hParams E.KP := List.set_getElem_self hq
  have hpd : PD A.xs.length (gramN s.kf A.xs) := gram_pd (kok_of_reach hE hk) hd.inputs
  have := likOf_deriv h1 (by rw [hset, hself]; exact hpd.det_pos.ne') (by rw [hset, hself]; ext a b; exact hpd.symm b b.2 a a.2) dout
    (resid (meanFn s.mf A.ys dout) A.xs A.ys)
  refine this.congr_deriv ?_
  rw [hset, hself, hval q]
  · rfl
  · intro i hi j hj
    exact congrFun (congrFun hsym ⟨j, hj⟩) ⟨i, hi⟩

/-- **C35**: whatever the mean-function parameters `p` one sets, after `recompute(true, false)`, `compute_mean_grad_log_lik()` is the
vector of derivatives of the likelihood with respect to the mean-function parameters. -/
theorem C35_mean_gradient_of_likelihood (hE : LawfulEnv E) (hM : StdMean E.M) (hr : GpReach E A s) (hk : A.k = true) (hi : A.i = true)
    (hd : DataSet A.xs A.ys din dout) (p : List ℝ) (hp : p.length = E.M.hSize s.mf) (hpos : 0 < p.length) (junk : Nat → Nat → ℝ) :
    ∃ u u' g, recompute junk (setMeanParams s p) true false = some u ∧ meanGradLogLik u = some (u', g) ∧
      ∀ q (hq : q < p.length), ∃ f : ℝ → ℝ, (∀ t junk', meanLik junk' s (p.set q t) = some (f t)) ∧ HasDerivAt f (g q) p[q] := by
  have T := hr.tracks hE
  have hmr := T.mreach (T.hasData hd)
  obtain ⟨u, hu, Tu, hkf, hmf⟩ := setM_recompute hE T hd.nonempty hk hi p (le_of_eq hp.symm) junk
  have hhu := Tu.hasData (A := ⟨A.xs, A.ys, true, true, true, true⟩) hd
  -- the gradients of the mean function exist
  have hG : ∀ no, ∃ g, E.M.grad u.mf (A.xs.getD no []) (meanObservation u) = some g := by
    intro no
    obtain ⟨g, h1, -⟩ := C46_mean_gradient hM hmr p hp 0 hpos (A.xs.getD no []) (meanObservation u)
    exact ⟨g, by rw [hmf]; exact h1⟩
  choose G hG using hG
  obtain ⟨u', hval⟩ := gradM_spec (A := ⟨A.xs, A.ys, true, true, true, true⟩) hE Tu ⟨hd.nonempty, rfl, rfl, rfl⟩ rfl hd G (fun no _ => hG no)
  refine ⟨u, u', _, hu, hval, ?_⟩
  intro q hq
  refine ⟨_, fun t junk' => meanLik_value hE T hk hi hd (p.set q t) (by rw [List.length_set, hp]) junk', ?_⟩
  have hset : p.set q p[q] = p := List.set_getElem_self hq
  have hpd : PD A.xs.length (gramN s.kf A.xs) := gram_pd (T.kokd hE (T.hasData hd)) hd.inputs
  have := likOf_deriv_mean (M := toM A.xs.length (gramN s.kf A.xs)) (by ext a b; exact hpd.symm b b.2 a a.2) dout
    (fun t => resid (meanFn (E.M.setH s.mf (p.set q t)) A.ys dout) A.xs A.ys) (fun c i => G i c q) p[q] (by
      intro c hc i
      unfold resid
      refine HasDerivAt.const_sub _ ?_
      obtain ⟨g, h1, h2⟩ := C46_mean_gradient hM hmr p hp q hq (A.xs.getD i []) (meanObservation u)
      rw [← hmf, hG i] at h1
      cases h1
      have h2 := h2 c hc
      rw [meanObservation_eq hhu, List.getD_eq_getElem _ _ i.2] at h2
      exact h2)
  refine this.congr_deriv ?_
  rw [hset, hkf, hmf]

/-- giving a mean function its own parameters changes nothing -/
theorem std_set_self {M : MeanImpl} (hM : StdMean M) {d : Nat} {s : M.St} (hs : MReach M d s) : M.setH s (M.hParams s) = s := by
  induction hM with
  | null => rfl
  | const c => rfl
  | data => rfl
  | @ard M hM ih =>
    obtain ⟨h1, h2, h3, h4⟩ := fard_reach (std_mean_ok hM) hs
    have hl := (std_mean_ok hM).len d _ h2
    show FArdSt.setH s (FArdSt.hParams s) = s
    obtain ⟨inner, d', tr, h⟩ := s
    simp only at h1 h2 h3 h4 hl
    subst h1
    simp only [FArdSt.setH, FArdSt.hParams, FArdSt.mk.injEq, true_and]
    refine ⟨?_, ?_, ?_⟩
    · by_cases h0 : M.hSize inner > 0
      · rw [if_pos h0, if_pos h0, List.length_append, hl, Nat.add_sub_cancel, List.drop_left]
        exact ih h2
      · rw [if_neg h0]
    · funext r c
      by_cases hrc : r < d' ∧ c < d' + 1
      · rw [if_pos hrc, at'_append_left _ _ _ (by rw [h3]; exact fard_pos hrc.1 hrc.2), h4 r hrc.1 c hrc.2]
      · rw [if_neg hrc]
    · rw [← h3, List.take_left]

/-- **C35** for the parameters the mean function currently has: on an up-to-date GP the gradient is the derivative at `h_params()`. -/
theorem C35_at_current_parameters (hE : LawfulEnv E) (hM : StdMean E.M) (hr : GpReach E A s) (hA : A.UpToDate) (hi : A.i = true)
    (hd : DataSet A.xs A.ys din dout) (hpos : 0 < (E.M.hParams s.mf).length) :
    ∃ s' g, meanGradLogLik s = some (s', g) ∧
      ∀ q (hq : q < (E.M.hParams s.mf).length), ∃ f : ℝ → ℝ, (∀ t junk, meanLik junk s ((E.M.hParams s.mf).set q t) = some (f t)) ∧
        HasDerivAt f (g q) (E.M.hParams s.mf)[q] := by
  have T := hr.tracks hE
  have hh := T.hasData hd
  have hmr := T.mreach hh
  have hp := (C45_mean_parameters hM hmr).1
  have hself : E.M.setH s.mf (E.M.hParams s.mf) = s.mf := std_set_self hM hmr
  have hG : ∀ no, ∃ g, E.M.grad s.mf (A.xs.getD no []) (meanObservation s) = some g := by
    intro no
    obtain ⟨g, h1, -⟩ := C46_mean_gradient hM hmr _ hp 0 hpos (A.xs.getD no []) (meanObservation s)
    rw [hself] at h1
    exact ⟨g, h1⟩
  choose G hG using hG
  obtain ⟨s', hval⟩ := gradM_spec hE T hA hi hd G (fun no _ => hG no)
  refine ⟨s', _, hval, ?_⟩
  intro q hq
  refine ⟨_, fun t junk' => meanLik_value hE T hA.2.1 hi hd _ (by rw [List.length_set, hp]) junk', ?_⟩
  have hset : (E.M.hParams s.mf).set q (E.M.hParams s.mf)[q] = E.M.hParams s.mf := List.set_getElem_self hq
  have hpd : PD A.xs.length (gramN s.kf A.xs) := gram_pd (T.kokd hE hh) hd.inputs
  have := likOf_deriv_mean (M := toM A.xs.length (gramN s.kf A.xs)) (by ext a b; exact hpd.symm b b.2 a a.2) dout
    (fun t => resid (meanFn (E.M.setH s.mf ((E.M.hParams s.mf).set q t)) A.ys dout) A.xs A.ys) (fun c i => G i c q) (E.M.hParams s.mf)[q] (by
      intro c hc i
      unfold resid
      refine HasDerivAt.const_sub _ ?_
      obtain ⟨g, h1, h2⟩ := C46_mean_gradient hM hmr _ hp q hq (A.xs.getD i []) (meanObservation s)
      rw [hself, hG i] at h1
      cases h1
      have h2 := h2 c hc
      rw [meanObservation_eq hh, List.getD_eq_getElem _ _ i.2] at h2
      exact h2)
  refine this.congr_deriv ?_
  rw [hset, hself]

/-- **C36**: `compute_log_loo_cv()` is the sum over outputs and data of the log predictive density of each observation given all the
others (covariance, noise and mean function unchanged). -/
theorem C36_leave_one_out (hE : LawfulEnv E) (hr : GpReach E A st) (hA : A.UpToDate) (hi : A.i = true) (hd : DataSet A.xs A.ys din dout) :
    (computeLogLoo st).map (·.2) = some (∑ c ∈ range dout, logLoo st.kf.op (meanFn st.mf A.ys dout) (st.kf.noise + 1e-8) A.xs A.ys c) := by
  have T := hr.tracks hE
  rw [loo_looOf hE T hA hi hd, op_fun, looOf_eq (T.kokd hE (T.hasData hd)) hd.inputs]

/-- **C37**: whatever the kernel parameters `p` one sets, after recomputing, `compute_kernel_grad_log_loo_cv()` is the vector of
derivatives of the leave-one-out criterion with respect to the parameters. -/
theorem C37_gradient_of_leave_one_out (hE : LawfulEnv E) (hI : StdKernel E.K) (hr : GpReach E A s) (hm : A.m = true) (hd : DataSet A.xs A.ys din dout)
    (p : List ℝ) (hp : p.length = s.kf.hParamsSize E.KP) (junk : Nat → Nat → ℝ) :
    ∃ u u' g, recompute junk (setKernelParams s p) false true = some u ∧ kernelGradLogLoo u = some (u', g) ∧
      ∀ q (hq : q < p.length), ∃ f : ℝ → ℝ, (∀ t junk', kernelLoo junk' s (p.set q t) = some (f t)) ∧ HasDerivAt f (g q) p[q] := by
  have T := hr.tracks hE
  obtain ⟨u, hu, Tu, hkf, hmf⟩ := setK_recompute hE T hd.nonempty hm p (le_of_eq hp.symm) junk
  obtain ⟨u', g, hg, hval⟩ := gradLoo_spec (A := ⟨A.xs, A.ys, true, true, true, true⟩) hE Tu ⟨hd.nonempty, rfl, rfl, rfl⟩ rfl hd
  refine ⟨u, u', g, hu, hg, ?_⟩
  intro q hq
  have hk := T.kreach (T.hasData hd)
  refine ⟨_, fun t junk' => kernelLoo_value hE T hm hd (p.set q t) (by rw [List.length_set, hp]) junk', ?_⟩
  obtain ⟨h1, hsym⟩ := gram_mderiv hE hI hk p hp q hq A.xs hd.inputs (Matrix.of fun i j => (s.kf.setHParams E.KP p).gradIJ E.KP (A.xs.getD i []) (A.xs.getD j []) i j q)
    (fun _ _ => rfl)
  have hset : p.set q p[q] = p := List.set_getElem_self hq
  have hpd : PD A.xs.length (gramN (s.kf.setHParams E.KP p) A.xs) := gram_pd (kok_of_reach hE (.set p hk (le_of_eq hp.symm))) hd.inputs
  have := looOf_deriv h1 (by rw [hset]; exact hpd.det_pos.ne') (by intro i; rw [hset]; exact hpd.inv_diag_pos i) dout (resid (meanFn s.mf A.ys dout) A.xs A.ys)
  refine this.congr_deriv ?_
  rw [hset, hval q _ _ _ rfl rfl (by intro i j; rw [hkf]; rfl) hsym, hkf, hmf]

/-- **C37** for the parameters the GP currently has: on an up-to-date GP the gradient is the derivative at `h_params()`. -/
theorem C37_at_current_parameters (hE : LawfulEnv E) (hI : StdKernel E.K) (hn : E.KP.optimizeNoise = true → 0 < E.KP.noise) (hr : GpReach E A s)
    (hA : A.UpToDate) (hi : A.i = true) (hd : DataSet A.xs A.ys din dout) :
    ∃ s' g, kernelGradLogLoo s = some (s', g) ∧
      ∀ q (hq : q < (s.kf.hParams E.KP).length), ∃ f : ℝ → ℝ, (∀ t junk, kernelLoo junk s ((s.kf.hParams E.KP).set q t) = some (f t)) ∧
        HasDerivAt f (g q) (s.kf.hParams E.KP)[q] := by
  have T := hr.tracks hE
  have hk := T.kreach (T.hasData hd)
  have h45 := C45_kernel_parameters hI hk
  obtain ⟨s', g, hg, hval⟩ := gradLoo_spec hE T hA hi hd
  refine ⟨s', g, hg, ?_⟩
  intro q hq
  have hp := h45.1
  refine ⟨_, fun t junk' => kernelLoo_value hE T hA.2.2.1 hd _ (by rw [List.length_set, hp]) junk', ?_⟩
  have hself : s.kf.setHParams E.KP (s.kf.hParams E.KP) = s.kf := h45.2.2 hn
  obtain ⟨h1, hsym⟩ := gram_mderiv hE hI hk _ hp q hq A.xs hd.inputs (Matrix.of fun i j => s.kf.gradIJ E.KP (A.xs.getD i []) (A.xs.getD j []) i j q)
    (fun _ _ => by rw [hself]; rfl)
  have hset : (s.kf.hParams E.KP).set q (s.kf.hParams E.KP)[q] = s.kf.hParams E.KP := List.set_getElem_self hq
  have hpd : PD A.xs.length (gramN s.kf A.xs) := gram_pd (kok_of_reach hE hk) hd.inputs
  have := looOf_deriv h1 (by rw [hset, hself]; exact hpd.det_pos.ne') (by intro i; rw [hset, hself]; exact hpd.inv_diag_pos i) dout
    (resid (meanFn s.mf A.ys dout) A.xs A.ys)
  refine this.congr_deriv ?_
  rw [hset, hself, hval q _ _ _ rfl rfl (by intro i j; rfl) hsym]

/-- The hypotheses of C34, C36 and C37 are met by the three-point GP of `exReach`; `exEnv` has four kernel parameters (two length scales, the
signal variance and the noise). -/
example : ∃ (A : GpAbs) (s : GpState exEnv), GpReach exEnv A s ∧ A.UpToDate ∧ A.i = true ∧ ∃ din dout, DataSet A.xs A.ys din dout := by
  obtain ⟨st, h⟩ := exReach
  exact ⟨_, st, h, ⟨by simp, rfl, rfl, rfl⟩, rfl, 2, 1, exData⟩

/-- C35 is not vacuous: the constant mean has a parameter. -/
example : StdMean (constMean 3) ∧ 0 < (constMean 3).hSize ((constMean 3).new 2) := ⟨.const 3, by show 0 < 1; omega⟩

end Limbo
