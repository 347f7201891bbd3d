import Verif.Lemmas.HpOpt

/-!
Hyper-parameter optimization never makes the criterion worse (C38) and leaves a consistent GP with the same data (C39).

`rprop iterations epsStop` is limbo's default optimizer for hyper-parameters (C15); `J` and `j` stand for uninitialised memory.
-/

namespace Limbo

open Finset Gp Matrix

variable {E : GpEnv} {A B : GpAbs} {s s' t : GpState E} {din dout : Nat}

/-- the parts of a tracked state that do not matter to the fit -/
theorem resid_congr {m m' : List ℝ → Nat → ℝ} {xs ys : List (List ℝ)} {d : Nat} (h : ∀ x, ∀ c < d, m x c = m' x c) (M : Matrix (Fin xs.length) (Fin xs.length) ℝ) :
    likOf M d (resid m xs ys) = likOf M d (resid m' xs ys) := by
  unfold likOf
  congr 2
  refine sum_congr rfl fun c hc => ?_
  have : resid m xs ys c = resid m' xs ys c := by
    funext i
    unfold resid
    rw [h _ c (mem_range.1 hc)]
  rw [this]

theorem kernel_lf_opt_tracks (hE : LawfulEnv E) (hI : StdKernel E.K) (hn : E.KP.optimizeNoise = true → 0 < E.KP.noise) (T : Tracks E A s)
    (hA : A.UpToDate) (hd : DataSet A.xs A.ys din dout) {iterations : Int} (hit : 0 < iterations) {epsStop : XR} (he : le (lit 0) epsStop = true)
    (J : List ℝ → Nat → Nat → ℝ) (j : Nat → Nat → ℝ) :
    ∃ s' v v', kernelLFOpt (rprop iterations epsStop) J j s = some s' ∧ (computeLogLik s).map (·.2) = some v ∧
      (computeLogLik s').map (·.2) = some v' ∧ v ≤ v' := by
  have h45 := C45_kernel_parameters hI (T.kreach (T.hasData hd))
  let V : List ℝ → ℝ := fun q => likOf (toM A.xs.length (gramN (s.kf.setHParams E.KP q) A.xs)) dout (resid (meanFn s.mf A.ys dout) A.xs A.ys)
  obtain ⟨q, hq, hrun, hV⟩ := hpObj_rprop (E := E) (upd := fun p => updKernel s (J p) p) (val := computeLogLik) (grad := gradKernelVec)
    (s.kf.hParams E.KP) V (by
      intro q hq
      obtain ⟨u, h1, Tu, hk, hm⟩ := updKernel_spec hE T hd.nonempty hA.2.2.1 (J q) q (by rw [hq, h45.1])
      obtain ⟨w, h2, Tw, hk', hm'⟩ := lik_eval hE Tu hd
      obtain ⟨w', g, h3, -⟩ := gradK_spec hE Tw (full_upToDate hd.nonempty) rfl hd
      refine ⟨u, w, _, h1, by rw [h2, hk, hm], by unfold gradKernelVec; rw [h3, Option.map_some], ?_⟩
      rw [List.length_map, List.length_range, h45.1, hk', hk]
      exact hParamsSize_set hI (T.kreach (T.hasData hd)) q) hit he
  obtain ⟨u, h1, Tu, hk, hm⟩ := updKernel_spec hE T hd.nonempty hA.2.2.1 j q (by rw [hq, h45.1])
  obtain ⟨w, h2, Tw, hk', hm'⟩ := lik_eval hE Tu hd
  refine ⟨w, V (s.kf.hParams E.KP), V q, ?_, ?_, ?_, hV⟩
  · unfold kernelLFOpt hpRun
    rw [hrun, Option.bind_some, reals?_map, Option.bind_some, h1, Option.bind_some, h2, Option.map_some]
  · rw [logLik_likOf hE T hA hd]
    simp only [V]
    rw [h45.2.2 hn]
  · rw [logLik_likOf hE Tw (full_upToDate hd.nonempty) hd, hk', hk, hm', hm]

/-- **C38**, `KernelLFOpt`: with Rprop (at least one iteration) the call succeeds and the log-likelihood does not decrease. -/
theorem C38_kernel_lf_opt (hE : LawfulEnv E) (hI : StdKernel E.K) (hn : E.KP.optimizeNoise = true → 0 < E.KP.noise) (hr : GpReach E A s)
    (hA : A.UpToDate) (hd : DataSet A.xs A.ys din dout) {iterations : Int} (hit : 0 < iterations) {epsStop : XR} (he : le (lit 0) epsStop = true)
    (J : List ℝ → Nat → Nat → ℝ) (j : Nat → Nat → ℝ) :
    ∃ s' v v', kernelLFOpt (rprop iterations epsStop) J j s = some s' ∧ (computeLogLik s).map (·.2) = some v ∧
      (computeLogLik s').map (·.2) = some v' ∧ v ≤ v' :=
  kernel_lf_opt_tracks hE hI hn (hr.tracks hE) hA hd hit he J j

theorem kernel_loo_opt_tracks (hE : LawfulEnv E) (hI : StdKernel E.K) (hn : E.KP.optimizeNoise = true → 0 < E.KP.noise) (T : Tracks E A s)
    (hA : A.UpToDate) (hi : A.i = true) (hd : DataSet A.xs A.ys din dout) {iterations : Int} (hit : 0 < iterations) {epsStop : XR}
    (he : le (lit 0) epsStop = true) (J : List ℝ → Nat → Nat → ℝ) (j : Nat → Nat → ℝ) :
    ∃ s' v v', kernelLooOpt (rprop iterations epsStop) J j s = some s' ∧ (computeLogLoo s).map (·.2) = some v ∧
      (computeLogLoo s').map (·.2) = some v' ∧ v ≤ v' := by
  have h45 := C45_kernel_parameters hI (T.kreach (T.hasData hd))
  let V : List ℝ → ℝ := fun q => looOf (toM A.xs.length (gramN (s.kf.setHParams E.KP q) A.xs)) dout (resid (meanFn s.mf A.ys dout) A.xs A.ys)
  obtain ⟨q, hq, hrun, hV⟩ := hpObj_rprop (E := E) (upd := fun p => updKernel s (J p) p) (val := computeLogLoo) (grad := gradLooVec)
    (s.kf.hParams E.KP) V (by
      intro q hq
      obtain ⟨u, h1, Tu, hk, hm⟩ := updKernel_spec hE T hd.nonempty hA.2.2.1 (J q) q (by rw [hq, h45.1])
      obtain ⟨w, h2, Tw, hk', hm'⟩ := loo_eval hE Tu hd
      obtain ⟨w', g, h3, -⟩ := gradLoo_spec hE Tw (full_upToDate hd.nonempty) rfl hd
      refine ⟨u, w, _, h1, by rw [h2, hk, hm], by unfold gradLooVec; rw [h3, Option.map_some], ?_⟩
      rw [List.length_map, List.length_range, h45.1, hk', hk]
      exact hParamsSize_set hI (T.kreach (T.hasData hd)) q) hit he
  obtain ⟨u, h1, Tu, hk, hm⟩ := updKernel_spec hE T hd.nonempty hA.2.2.1 j q (by rw [hq, h45.1])
  obtain ⟨w, h2, Tw, hk', hm'⟩ := loo_eval hE Tu hd
  refine ⟨w, V (s.kf.hParams E.KP), V q, ?_, ?_, ?_, hV⟩
  · unfold kernelLooOpt hpRun
    rw [hrun, Option.bind_some, reals?_map, Option.bind_some, h1, Option.bind_some, h2, Option.map_some]
  · rw [loo_looOf hE T hA hi hd]
    simp only [V]
    rw [h45.2.2 hn]
  · rw [loo_looOf hE Tw (full_upToDate hd.nonempty) rfl hd, hk', hk, hm', hm]

/-- **C38**, `KernelLooOpt`: the same for the leave-one-out criterion. -/
theorem C38_kernel_loo_opt (hE : LawfulEnv E) (hI : StdKernel E.K) (hn : E.KP.optimizeNoise = true → 0 < E.KP.noise) (hr : GpReach E A s)
    (hA : A.UpToDate) (hi : A.i = true) (hd : DataSet A.xs A.ys din dout) {iterations : Int} (hit : 0 < iterations) {epsStop : XR}
    (he : le (lit 0) epsStop = true) (J : List ℝ → Nat → Nat → ℝ) (j : Nat → Nat → ℝ) :
    ∃ s' v v', kernelLooOpt (rprop iterations epsStop) J j s = some s' ∧ (computeLogLoo s).map (·.2) = some v ∧
      (computeLogLoo s').map (·.2) = some v' ∧ v ≤ v' :=
  kernel_loo_opt_tracks hE hI hn (hr.tracks hE) hA hi hd hit he J j

/-- **C38**, `MeanLFOpt`, for a mean function with at least one parameter. -/
theorem C38_mean_lf_opt (hE : LawfulEnv E) (hM : StdMean E.M) (hr : GpReach E A s) (hA : A.UpToDate) (hi : A.i = true)
    (hd : DataSet A.xs A.ys din dout) (hpos : 0 < E.M.hSize s.mf) {iterations : Int} (hit : 0 < iterations) {epsStop : XR}
    (he : le (lit 0) epsStop = true) (J : List ℝ → Nat → Nat → ℝ) (j : Nat → Nat → ℝ) :
    ∃ s' v v', meanLFOpt (rprop iterations epsStop) J j s = some s' ∧ (computeLogLik s).map (·.2) = some v ∧
      (computeLogLik s').map (·.2) = some v' ∧ v ≤ v' := by
  have T := hr.tracks hE
  have hmr := T.mreach (T.hasData hd)
  have h45 := C45_mean_parameters hM hmr
  obtain ⟨s0, hs0⟩ := inv_progress T hd.nonempty hA.2.1 hA.2.2.1
  obtain ⟨T0, hshape⟩ := track_inv T hs0
  have hmf0 : s0.mf = s.mf := by rw [hshape]
  have hkf0 : s0.kf = s.kf := by rw [hshape]
  let V : List ℝ → ℝ := fun q => likOf (toM A.xs.length (gramN s.kf A.xs)) dout (resid (meanFn (E.M.setH s.mf q) A.ys dout) A.xs A.ys)
  obtain ⟨q, hq, hrun, hV⟩ := hpObj_rprop (E := E) (upd := fun p => updMean s0 (J p) p) (val := computeLogLik) (grad := gradMeanVec)
    (E.M.hParams s.mf) V (by
      intro q hq
      obtain ⟨u, h1, Tu, hk, hm⟩ := updMean_spec (A := { A with i := A.k }) hE T0 hd.nonempty hA.2.1 hA.2.1 (J q) q (by rw [hq, h45.1, hmf0])
      obtain ⟨w, h2, Tw, hk', hm'⟩ := lik_eval hE Tu hd
      have hG : ∀ no, ∃ g, E.M.grad w.mf (A.xs.getD no []) (meanObservation w) = some g := by
        intro no
        obtain ⟨g, h1, -⟩ := C46_mean_gradient hM hmr q (by rw [hq, h45.1]) 0 (by rw [hq, h45.1]; exact hpos) (A.xs.getD no []) (meanObservation w)
        exact ⟨g, by rw [hm', hm, hmf0]; exact h1⟩
      choose G hG using hG
      obtain ⟨w', h3⟩ := gradM_spec hE Tw (full_upToDate hd.nonempty) rfl hd G (fun no _ => hG no)
      refine ⟨u, w, _, h1, by rw [h2, hk, hm, hkf0, hmf0], by unfold gradMeanVec; rw [h3, Option.map_some], ?_⟩
      rw [List.length_map, List.length_range, h45.1, hm', hm, hmf0]
      exact (std_mean_ok hM).size_set _ _ _ hmr) hit he
  obtain ⟨u, h1, Tu, hk, hm⟩ := updMean_spec hE T hd.nonempty hA.2.1 hi j q (by rw [hq, h45.1])
  obtain ⟨w, h2, Tw, hk', hm'⟩ := lik_eval hE Tu hd
  refine ⟨w, V (E.M.hParams s.mf), V q, ?_, ?_, ?_, hV⟩
  · unfold meanLFOpt hpRun
    rw [hs0, Option.bind_some, hrun, Option.bind_some, reals?_map, Option.bind_some, h1, Option.bind_some, h2, Option.map_some]
  · rw [logLik_likOf hE T hA hd]
    simp only [V]
    congr 1
    exact resid_congr (fun x c hc => (h45.2.2 _ hmr x _ c hc).symm) _
  · rw [logLik_likOf hE Tw (full_upToDate hd.nonempty) hd, hk', hk, hm', hm]

/-- **C38**, `KernelMeanLFOpt`, for a mean function with at least one parameter. -/
theorem C38_kernel_mean_lf_opt (hE : LawfulEnv E) (hI : StdKernel E.K) (hn : E.KP.optimizeNoise = true → 0 < E.KP.noise) (hM : StdMean E.M)
    (hr : GpReach E A s) (hA : A.UpToDate) (hd : DataSet A.xs A.ys din dout) (hpos : 0 < E.M.hSize s.mf)
    {iterations : Int} (hit : 0 < iterations) {epsStop : XR} (he : le (lit 0) epsStop = true) (J : List ℝ → Nat → Nat → ℝ) (j : Nat → Nat → ℝ) :
    ∃ s' v v', kernelMeanLFOpt (rprop iterations epsStop) J j s = some s' ∧ (computeLogLik s).map (·.2) = some v ∧
      (computeLogLik s').map (·.2) = some v' ∧ v ≤ v' := by
  have T := hr.tracks hE
  have hkr := T.kreach (T.hasData hd)
  have hmr := T.mreach (T.hasData hd)
  have hK := C45_kernel_parameters hI hkr
  have h45 := C45_mean_parameters hM hmr
  have hlen : (s.kf.hParams E.KP ++ E.M.hParams s.mf).length = s.kf.hParamsSize E.KP + E.M.hSize s.mf := by rw [List.length_append, hK.1, h45.1]
  let V : List ℝ → ℝ := fun q => likOf (toM A.xs.length (gramN (s.kf.setHParams E.KP (q.take (s.kf.hParamsSize E.KP))) A.xs)) dout
    (resid (meanFn (E.M.setH s.mf (q.drop (q.length - E.M.hSize s.mf))) A.ys dout) A.xs A.ys)
  obtain ⟨q, hq, hrun, hV⟩ := hpObj_rprop (E := E) (upd := fun p => updBoth s (J p) p) (val := computeLogLik) (grad := gradBothVec)
    (s.kf.hParams E.KP ++ E.M.hParams s.mf) V (by
      intro q hq
      rw [hlen] at hq
      obtain ⟨u, h1, Tu, hk, hm⟩ := updBoth_spec hE T hd.nonempty (J q) q (by omega) (by omega)
      obtain ⟨w, h2, Tw, hk', hm'⟩ := lik_eval hE Tu hd
      obtain ⟨w1, g, h3, -⟩ := gradK_spec hE Tw (full_upToDate hd.nonempty) rfl hd
      have Tw1 : Tracks E (full A.xs A.ys) w1 := track_step hE (fun _ _ => 0) Tw (op := .kernelGradLogLik) trivial (by simp [step, h3])
      have hmf1 : w1.mf = w.mf := by
        obtain ⟨-, ⟨iv, hiv⟩, -⟩ := track_ensureInv Tw (gradK_shape h3)
        simp only at hiv
        rw [hiv]
      have hG : ∀ no, ∃ g, E.M.grad w1.mf (A.xs.getD no []) (meanObservation w1) = some g := by
        intro no
        have hl : (q.drop (q.length - E.M.hSize s.mf)).length = E.M.hSize s.mf := by rw [List.length_drop]; omega
        obtain ⟨g, h1, -⟩ := C46_mean_gradient hM hmr (q.drop (q.length - E.M.hSize s.mf)) hl 0 (by rw [hl]; exact hpos) (A.xs.getD no []) (meanObservation w1)
        exact ⟨g, by rw [hmf1, hm', hm]; exact h1⟩
      choose G hG using hG
      obtain ⟨w', h4⟩ := gradM_spec hE Tw1 (full_upToDate hd.nonempty) rfl hd G (fun no _ => hG no)
      refine ⟨u, w, _, h1, by rw [h2, hk, hm], by unfold gradBothVec gradMeanVec; rw [h3, Option.bind_some]; simp only; rw [h4, Option.map_some, Option.map_some], ?_⟩
      rw [List.length_append, List.length_map, List.length_range, List.length_map, List.length_range, hlen, hk', hk, hmf1, hm', hm]
      rw [hParamsSize_set hI hkr, (std_mean_ok hM).size_set _ _ _ hmr]) hit he
  rw [hlen] at hq
  obtain ⟨u, h1, Tu, hk, hm⟩ := updBoth_spec hE T hd.nonempty j q (by omega) (by omega)
  obtain ⟨w, h2, Tw, hk', hm'⟩ := lik_eval hE Tu hd
  refine ⟨w, V (s.kf.hParams E.KP ++ E.M.hParams s.mf), V q, ?_, ?_, ?_, hV⟩
  · unfold kernelMeanLFOpt hpRun
    rw [hrun, Option.bind_some, reals?_map, Option.bind_some, h1, Option.bind_some, h2, Option.map_some]
  · rw [logLik_likOf hE T hA hd]
    simp only [V]
    have e1 : (s.kf.hParams E.KP ++ E.M.hParams s.mf).take (s.kf.hParamsSize E.KP) = s.kf.hParams E.KP := by rw [← hK.1]; simp
    have e2 : (s.kf.hParams E.KP ++ E.M.hParams s.mf).drop ((s.kf.hParams E.KP ++ E.M.hParams s.mf).length - E.M.hSize s.mf) = E.M.hParams s.mf := by
      rw [hlen, Nat.add_sub_cancel, ← hK.1]; simp
    rw [e1, e2, hK.2.2 hn]
    congr 1
    exact resid_congr (fun x c hc => (h45.2.2 _ hmr x _ c hc).symm) _
  · rw [logLik_likOf hE Tw (full_upToDate hd.nonempty) hd, hk', hk, hm', hm]

/-- The result of a hyper-parameter optimization that did not fail, whatever the optimizer `O` did: same data; predictions, weights,
likelihood as for any other up-to-date GP on these data with the same kernel and mean function; and such a GP is obtained from it by
`compute`. -/
structure KeepsDataAndFits (A : GpAbs) (s' : GpState E) (dout : Nat) : Prop where
  samples : samplesOf s' = A.xs
  observations : observationsOf s' = A.ys
  fresh : ∀ junk, ∃ t, compute junk s' A.xs A.ys true = some t ∧ t.kf = s'.kf ∧ t.mf = s'.mf ∧ SameFit s' t A.xs.length dout
  anyOther : ∀ (B : GpAbs) (t : GpState E), GpReach E B t → B.UpToDate → B.xs = A.xs → B.ys = A.ys → t.kf = s'.kf → t.mf = s'.mf →
    SameFit s' t A.xs.length dout

theorem keeps_of_tracks (hE : LawfulEnv E) (T : Tracks E (full A.xs A.ys) s') (hd : DataSet A.xs A.ys din dout) : KeepsDataAndFits A s' dout := by
  have hh := T.hasData hd
  refine ⟨T.samples, observations_eq hh, ?_, ?_⟩
  · intro junk
    obtain ⟨t, h2, T2, hk2, hm2, -, -⟩ := track_compute hE junk T hd true
    rw [if_pos hh.dimIn] at hk2
    rw [if_pos hh.dimOut] at hm2
    exact ⟨t, h2, hk2, hm2, sameFit_of_tracks hE T T2 rfl rfl (full_upToDate hd.nonempty) ⟨hd.nonempty, rfl, rfl, rfl⟩ hd hk2.symm
      (fun _ _ _ _ => by rw [hm2])⟩
  · intro B t hB hBu hx hy hk hm
    exact sameFit_of_tracks hE T (hB.tracks hE) hx.symm hy.symm (full_upToDate hd.nonempty) hBu hd hk.symm (fun _ _ _ _ => by rw [hm])

/-- **C39** for `KernelLFOpt`, any optimizer. -/
theorem C39_kernel_lf_opt (hE : LawfulEnv E) (hr : GpReach E A s) (hm : A.m = true) (hd : DataSet A.xs A.ys din dout) (O : Optz XR)
    (J : List ℝ → Nat → Nat → ℝ) (j : Nat → Nat → ℝ) (h : kernelLFOpt O J j s = some s') :
    KeepsDataAndFits A s' dout ∧ s'.mf = s.mf := by
  obtain ⟨q, u, r, h1, h2, rfl⟩ := hpRun_inv h
  have hp : s.kf.hParamsSize E.KP ≤ q.length := by
    by_contra hp; unfold updKernel at h1; rw [if_neg hp] at h1; cases h1
  obtain ⟨u', h1', Tu, -, hmf⟩ := updKernel_spec hE (hr.tracks hE) hd.nonempty hm j q hp
  rw [h1] at h1'; cases h1'
  obtain ⟨Tr, -, hm'⟩ := lik_tracks hE Tu h2
  exact ⟨keeps_of_tracks hE Tr hd, by rw [hm', hmf]⟩

/-- **C39** for `KernelLooOpt`, any optimizer. -/
theorem C39_kernel_loo_opt (hE : LawfulEnv E) (hr : GpReach E A s) (hm : A.m = true) (hd : DataSet A.xs A.ys din dout) (O : Optz XR)
    (J : List ℝ → Nat → Nat → ℝ) (j : Nat → Nat → ℝ) (h : kernelLooOpt O J j s = some s') :
    KeepsDataAndFits A s' dout ∧ s'.mf = s.mf := by
  obtain ⟨q, u, r, h1, h2, rfl⟩ := hpRun_inv h
  have hp : s.kf.hParamsSize E.KP ≤ q.length := by
    by_contra hp; unfold updKernel at h1; rw [if_neg hp] at h1; cases h1
  obtain ⟨u', h1', Tu, -, hmf⟩ := updKernel_spec hE (hr.tracks hE) hd.nonempty hm j q hp
  rw [h1] at h1'; cases h1'
  obtain ⟨Tr, -, hm'⟩ := loo_tracks hE Tu h2
  exact ⟨keeps_of_tracks hE Tr hd, by rw [hm', hmf]⟩

/-- **C39** for `MeanLFOpt`, any optimizer. -/
theorem C39_mean_lf_opt (hE : LawfulEnv E) (hr : GpReach E A s) (hk : A.k = true) (hi : A.i = true) (hd : DataSet A.xs A.ys din dout) (O : Optz XR)
    (J : List ℝ → Nat → Nat → ℝ) (j : Nat → Nat → ℝ) (h : meanLFOpt O J j s = some s') :
    KeepsDataAndFits A s' dout ∧ s'.kf = s.kf := by
  unfold meanLFOpt at h
  rw [Option.bind_eq_some_iff] at h
  obtain ⟨s0, -, h⟩ := h
  obtain ⟨q, u, r, h1, h2, rfl⟩ := hpRun_inv h
  have hp : E.M.hSize s.mf ≤ q.length := by
    by_contra hp; unfold updMean at h1; rw [if_neg hp] at h1; cases h1
  obtain ⟨u', h1', Tu, hkf, -⟩ := updMean_spec hE (hr.tracks hE) hd.nonempty hk hi j q hp
  rw [h1] at h1'; cases h1'
  obtain ⟨Tr, hk', -⟩ := lik_tracks hE Tu h2
  exact ⟨keeps_of_tracks hE Tr hd, by rw [hk', hkf]⟩

/-- **C39** for `KernelMeanLFOpt`, any optimizer. -/
theorem C39_kernel_mean_lf_opt (hE : LawfulEnv E) (hr : GpReach E A s) (hd : DataSet A.xs A.ys din dout) (O : Optz XR)
    (J : List ℝ → Nat → Nat → ℝ) (j : Nat → Nat → ℝ) (h : kernelMeanLFOpt O J j s = some s') : KeepsDataAndFits A s' dout := by
  obtain ⟨q, u, r, h1, h2, rfl⟩ := hpRun_inv h
  have hp : s.kf.hParamsSize E.KP ≤ q.length ∧ E.M.hSize s.mf ≤ q.length := by
    by_contra hp; unfold updBoth at h1; simp only at h1; rw [if_neg hp] at h1; cases h1
  obtain ⟨u', h1', Tu, -, -⟩ := updBoth_spec hE (hr.tracks hE) hd.nonempty j q hp.1 hp.2
  rw [h1] at h1'; cases h1'
  exact keeps_of_tracks hE (lik_tracks hE Tu h2).1 hd

/-- **C38**, code and property disagree: with a mean function that has no gradient (`mean::NullFunction` and `mean::Data`, which have no
parameters and inherit `BaseMean::grad`) `MeanLFOpt` and `KernelMeanLFOpt` fail an assertion at their first evaluation (with assertions
disabled they use an uninitialised gradient) instead of leaving the mean function alone. -/
theorem C38_mean_without_parameters_fails (hE : LawfulEnv E) (hM : E.M = nullMean ∨ E.M = dataMean) (hr : GpReach E A s) (hA : A.UpToDate)
    (hd : DataSet A.xs A.ys din dout) (ho : 0 < dout) {iterations : Int} (hit : 0 < iterations) (epsStop : XR)
    (J : List ℝ → Nat → Nat → ℝ) (j : Nat → Nat → ℝ) :
    meanLFOpt (rprop iterations epsStop) J j s = none ∧ kernelMeanLFOpt (rprop iterations epsStop) J j s = none := by
  have T := hr.tracks hE
  have hG : ∀ (mf : E.M.St) x mo, E.M.grad mf x mo = none := by
    rcases E with ⟨K, KP, M, llt⟩
    rcases hM with h | h <;> (simp only at h; subst h; intro _ _ _; rfl)
  have hS : ∀ mf : E.M.St, E.M.hSize mf = 0 := by
    rcases E with ⟨K, KP, M, llt⟩
    rcases hM with h | h <;> (simp only at h; subst h; intro _; rfl)
  have key : ∀ w : GpState E, Tracks E (full A.xs A.ys) w → meanGradLogLik w = none := by
    intro w Tw
    have hh := Tw.hasData hd
    have := (Tw.mok hd.nonempty rfl).rows
    refine meanGrad_none (hG _) (by rw [hh.dimOut, Int.toNat_natCast]; exact ho) ?_
    rw [this]
    exact List.length_pos_iff.2 hd.nonempty
  constructor
  · unfold meanLFOpt
    obtain ⟨s0, hs0⟩ := inv_progress T hd.nonempty hA.2.1 hA.2.2.1
    obtain ⟨T0, hshape⟩ := track_inv T hs0
    rw [hs0, Option.bind_some]
    unfold hpRun
    rw [rprop_none (hpObj_none ?_) hit, Option.bind_none]
    intro u r h1 h2
    obtain ⟨u', h1', Tu, -, -⟩ := updMean_spec (A := { A with i := A.k }) hE T0 hd.nonempty hA.2.1 hA.2.1 (J (E.M.hParams s.mf)) (E.M.hParams s.mf)
      (by rw [hS]; exact Nat.zero_le _)
    rw [h1] at h1'; cases h1'
    unfold gradMeanVec
    rw [key _ (lik_tracks hE Tu h2).1]; rfl
  · unfold kernelMeanLFOpt hpRun
    rw [rprop_none (hpObj_none ?_) hit, Option.bind_none]
    intro u r h1 h2
    have hp : s.kf.hParamsSize E.KP ≤ (s.kf.hParams E.KP ++ E.M.hParams s.mf).length ∧ E.M.hSize s.mf ≤ (s.kf.hParams E.KP ++ E.M.hParams s.mf).length := by
      by_contra hp; unfold updBoth at h1; simp only at h1; rw [if_neg hp] at h1; cases h1
    obtain ⟨u', h1', Tu, -, -⟩ := updBoth_spec hE T hd.nonempty (J (s.kf.hParams E.KP ++ E.M.hParams s.mf)) _ hp.1 hp.2
    rw [h1] at h1'; cases h1'
    have Tw := (lik_tracks hE Tu h2).1
    unfold gradBothVec
    rw [Option.bind_eq_none_iff]
    rintro ⟨w1, g⟩ h3
    have Tw1 : Tracks E (full A.xs A.ys) w1 := track_step hE (fun _ _ => 0) Tw (op := .kernelGradLogLik) trivial (by simp [step, h3])
    unfold gradMeanVec
    rw [key _ Tw1]; rfl

/-- 300 iterations of Rprop on the three-point GP of `exReach` (its kernel has four parameters, its mean function none). -/
example : ∃ (A : GpAbs) (s s' : GpState exEnv), GpReach exEnv A s ∧ A.UpToDate ∧ A.i = true ∧ DataSet A.xs A.ys 2 1 ∧
    kernelLFOpt (rprop 300 (lit 0)) (fun _ _ _ => 7) (fun _ _ => 5) s = some s' ∧ kernelMeanLFOpt (rprop 300 (lit 0)) (fun _ _ _ => 7) (fun _ _ => 5) s = none := by
  obtain ⟨st, h⟩ := exReach
  have hA : GpAbs.UpToDate ⟨[[0, 1], [2, 3], [0, 1]], [[1], [5], [2]], true, true, true, true⟩ := ⟨by simp, rfl, rfl, rfl⟩
  obtain ⟨s', v, v', h', -⟩ := C38_kernel_lf_opt exEnv_lawful (.seArd 0 (by norm_num)) (fun _ => by show (0:ℝ) < 0.01; norm_num) h hA exData
    (iterations := 300) (by norm_num) (epsStop := lit 0) (show le (XR.fin _) (XR.fin _) = true by rw [XR.le_fin]) (fun _ _ _ => 7) (fun _ _ => 5)
  exact ⟨_, st, s', h, hA, rfl, exData, h', (C38_mean_without_parameters_fails exEnv_lawful (Or.inr rfl) h hA exData (by norm_num) (by norm_num) _ _ _).2⟩

/-- The premises of the mean-function variants are met by a GP with a constant mean. -/
example : ∃ (E : GpEnv) (A : GpAbs) (s : GpState E), LawfulEnv E ∧ StdMean E.M ∧ GpReach E A s ∧ A.UpToDate ∧ A.i = true ∧ 0 < E.M.hSize s.mf ∧
    ∃ din dout, DataSet A.xs A.ys din dout := by
  let E : GpEnv := ⟨seArd 0 2, ⟨0.01, true⟩, constMean 3, exEnv.llt⟩
  have hE : LawfulEnv E := ⟨exEnv_lawful.llt, exEnv_lawful.noise, exEnv_lawful.cov⟩
  obtain ⟨st, h, _⟩ := track_compute hE (fun _ _ => 7) (track_new (E := E) (0, 0)) exData true
  exact ⟨E, _, st, hE, .const 3, (GpReach.new (E := E) (0, 0)).step (op := .compute _ _ true) (junk := fun _ _ => 7) trivial h, ⟨by simp [GpAbs.step], rfl, rfl, rfl⟩, rfl,
    Nat.one_pos, 2, 1, exData⟩

end Limbo
