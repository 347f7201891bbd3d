import Verif.Props.Gp

/-!
Saving and loading a GP (C40) and the stale cache after loading without recomputing (C32).

`save st` is the list of objects `GP::save` hands to an archive, `load junk t a r` reads them into the GP object `t`; the archives
themselves are C54 and C55.
-/

namespace Limbo

open Finset Gp Matrix

variable {E : GpEnv} {A B : GpAbs} {st s t : GpState E} {din dout : Nat}

/-- kernel of a state with data -/
theorem Gp.Tracks.kreach (T : Tracks E A s) (hh : HasData s A.xs A.ys din dout) : KReach E.K E.KP din s.kf := by
  rcases T.reach.1 with h | h
  · rw [hh.dimIn] at h; omega
  · rw [hh.dimIn] at h; simpa using h

theorem Gp.Tracks.mreach (T : Tracks E A s) (hh : HasData s A.xs A.ys din dout) : MReach E.M dout s.mf := by
  rcases T.reach.2 with h | h
  · rw [hh.dimOut] at h; omega
  · rw [hh.dimOut] at h; simpa using h

/-- the size of the kernel's parameter vector depends on the dimension only, and is positive -/
theorem kernel_size (hI : StdKernel E.K) (hkr : KReach E.K E.KP din s.kf) :
    (BaseK.mk' E.KP din : BaseK E.K).hParamsSize E.KP = s.kf.hParamsSize E.KP ∧ 0 < s.kf.hParamsSize E.KP := by
  constructor
  · unfold BaseK.hParamsSize
    have := (std_params hI hkr).2.2.2
    have h2 : (BaseK.mk' E.KP din : BaseK E.K).inner = E.K.new din := rfl
    rw [this, h2]
  · have h0 : 0 < E.K.paramsSize s.kf.inner := by
      cases E with
      | mk K KP M llt =>
        cases hI with
        | exp h hl => exact Nat.zero_lt_two
        | matern32 h hl => exact Nat.zero_lt_two
        | matern52 h hl => exact Nat.zero_lt_two
        | seArd kk h => exact Nat.succ_pos _
    unfold BaseK.hParamsSize
    omega

/-- loading the parameters and data that were saved rebuilds the same kernel and an equivalent mean -/
theorem load_saved (hI : StdKernel E.K) (hM : StdMean E.M) (hn : E.KP.optimizeNoise = true → 0 < E.KP.noise)
    (T : Tracks E A s) (hd : DataSet A.xs A.ys din dout) (t : GpState E) (r : Bool) (junk : Nat → Nat → ℝ) (a : Saved)
    (hak : a.kernelParams = (save s).kernelParams) (ham : a.meanParams = (save s).meanParams) (hsv : a.samples = s.samples)
    (hob : a.observations.cols = s.obs.cols) :
    ∃ mf, MReach E.M dout mf ∧ (∀ x mo, ∀ c < dout, E.M.op mf x mo c = E.M.op s.mf x mo c) ∧ E.M.hParams mf = E.M.hParams s.mf ∧
      load junk t a r = if r then recompute junk (loaded t a s.kf mf) true true
        else some { loaded t a s.kf mf with L := a.matrixL, alpha := a.alpha } := by
  have hh := T.hasData hd
  have hkr := T.kreach hh
  have hmr := T.mreach hh
  have hmok := std_mean_ok hM
  have hhead : (s.samples.headD []).length = din := by rw [T.samples]; exact headD_len hd.nonempty hd.inputs
  obtain ⟨hsize, hksz⟩ := kernel_size hI hkr
  have hkl := (C45_kernel_parameters hI hkr).1
  have hml := hmok.len dout _ hmr
  have hmsz := hmok.size_eq hmr
  refine ⟨if E.M.hSize s.mf > 0 then E.M.setH (E.M.new dout) (E.M.hParams s.mf) else E.M.new dout, ?_, ?_, ?_, ?_⟩
  · split
    · exact .set _ .new (by rw [hml, hmsz])
    · exact .new
  · intro x mo c hc
    split
    · exact hmok.set_get dout _ _ x mo c hmr .new hc
    · rename_i h0
      have e1 : E.M.hParams s.mf = [] := List.length_eq_zero_iff.1 (by rw [hml]; omega)
      have e2 : E.M.hParams (E.M.new dout) = [] := List.length_eq_zero_iff.1 (by rw [hmok.len dout _ .new]; omega)
      rw [← hmok.set_get dout _ _ x mo c hmr MReach.new hc, ← hmok.set_get dout _ _ x mo c MReach.new MReach.new hc, e1, e2]
  · split
    · exact hmok.get_set dout _ _ .new (by rw [hml, hmsz])
    · rename_i h0
      have e1 : E.M.hParams s.mf = [] := List.length_eq_zero_iff.1 (by rw [hml]; omega)
      have e2 : E.M.hParams (E.M.new dout) = [] := List.length_eq_zero_iff.1 (by rw [hmok.len dout _ .new]; omega)
      rw [e1, e2]
  · unfold load
    rw [hsv, if_neg (by rw [T.samples]; exact hd.nonempty)]
    simp only [hhead, hob, hh.obsCols]
    rw [hsize, if_pos hksz]
    have hkp : (save s).kernelParams = some (s.kf.hParams E.KP) := by unfold save; simp only; rw [if_pos hksz]
    rw [hak, hkp, Option.bind_some, if_pos hkl, Option.bind_some]
    have hcopy : (BaseK.mk' E.KP din : BaseK E.K).setHParams E.KP (s.kf.hParams E.KP) = s.kf := C45_kernel_copy hI hn hkr .new
    rw [hcopy]
    have e : loaded t a s.kf = fun mf => { t with samples := s.samples, obs := a.observations, dimIn := din, kf := s.kf, dimOut := dout, mf := mf, meanObs := colMean a.observations } := by
      funext mf
      unfold loaded
      rw [hsv, hob, hhead, hh.obsCols]
    rw [e]
    by_cases h0 : E.M.hSize s.mf > 0
    · have hmp : (save s).meanParams = some (E.M.hParams s.mf) := by unfold save; simp only; rw [if_pos h0]
      rw [if_pos (by rw [← hmsz]; exact h0), ham, hmp, Option.bind_some, if_pos (by rw [hml, hmsz]), Option.bind_some, if_pos h0]
    · rw [if_neg (by rw [← hmsz]; exact h0), Option.bind_some, if_neg h0]

/-- loading what was saved -/
theorem load_save (hI : StdKernel E.K) (hM : StdMean E.M) (hn : E.KP.optimizeNoise = true → 0 < E.KP.noise)
    (T : Tracks E A s) (hd : DataSet A.xs A.ys din dout) (t : GpState E) (r : Bool) (junk : Nat → Nat → ℝ) :
    ∃ mf, MReach E.M dout mf ∧ (∀ x mo, ∀ c < dout, E.M.op mf x mo c = E.M.op s.mf x mo c) ∧ E.M.hParams mf = E.M.hParams s.mf ∧
      load junk t (save s) r = if r then recompute junk (loaded t (save s) s.kf mf) true true
        else some { loaded t (save s) s.kf mf with L := s.L, alpha := s.alpha } :=
  load_saved hI hM hn T hd t r junk (save s) rfl rfl rfl rfl

theorem save_rows {xs ys : List (List ℝ)} (hh : HasData s xs ys din dout) : rowsOf (save s).observations = ys := observations_eq hh

theorem saveLoad_tracks (hE : LawfulEnv E) (hI : StdKernel E.K) (hM : StdMean E.M) (hn : E.KP.optimizeNoise = true → 0 < E.KP.noise)
    (T : Tracks E A s) (hA : A.UpToDate) (hd : DataSet A.xs A.ys din dout) (t : GpState E) (recomp : Bool) (junk : Nat → Nat → ℝ) :
    ∃ t', load junk t (save s) recomp = some t' ∧ samplesOf t' = A.xs ∧ observationsOf t' = A.ys ∧
      t'.kf.hParams E.KP = s.kf.hParams E.KP ∧ E.M.hParams t'.mf = E.M.hParams s.mf ∧
      (∀ v, ∃ m m', mu s v = some m ∧ mu t' v = some m' ∧ ∀ c < dout, m c = m' c) ∧
      (∀ v, ∃ σ, sigma s v = some σ ∧ sigma t' v = some σ) ∧
      (recomp = true → SameFit s t' A.xs.length dout) := by
  have hh := T.hasData hd
  obtain ⟨hne, hk, hm, ha⟩ := hA
  obtain ⟨mf, hmr, hmop, hmh, hload⟩ := load_save hI hM hn T hd t recomp junk
  have hds : DataSet (save s).samples (rowsOf (save s).observations) din dout := by
    rw [save_rows hh, show (save s).samples = A.xs from T.samples]; exact hd
  have hld : HasData (loaded t (save s) s.kf mf) (save s).samples (rowsOf (save s).observations) din dout := loaded_hasData hds
  cases recomp with
  | true =>
    simp only [if_true] at hload
    have T0 : Tracks E ⟨A.xs, A.ys, false, false, false, false⟩ (loaded t (save s) s.kf mf) := by
      refine ⟨T.samples, fun e => absurd e hne, fun _ => ⟨din, dout, ?_⟩, ⟨Or.inr ?_, Or.inr ?_⟩, ?_, ?_, ?_, ?_⟩
      · rw [save_rows hh, show (save s).samples = A.xs from T.samples] at hld; exact hld
      · rw [hld.dimIn]; exact T.kreach hh
      · rw [hld.dimOut]; exact hmr
      · intro _ h; cases h
      · intro h; cases h
      · intro _ h; cases h
      · intro _ h; cases h
    obtain ⟨t', h1⟩ := recompute_progress hE junk T0 (um := true) (uk := true) ⟨hne, Or.inl rfl, Or.inl rfl⟩
    obtain ⟨T1, hk1, hm1, -, -⟩ := track_recompute hE junk T0 h1
    have hsf : SameFit s t' A.xs.length dout :=
      sameFit_of_tracks hE T T1 rfl rfl ⟨hne, hk, hm, ha⟩ ⟨hne, rfl, rfl, rfl⟩ hd (by rw [hk1]; rfl)
        (fun v mo c hc => by rw [hm1]; exact (hmop v mo c hc).symm)
    refine ⟨t', by rw [hload, h1], T1.samples, ?_, ?_, ?_, hsf.mu, hsf.sigma, fun _ => hsf⟩
    · exact observations_eq (T1.hasData (A := ⟨A.xs, A.ys, _, _, _, _⟩) hd)
    · rw [hk1]; rfl
    · rw [hm1]; exact hmh
  | false =>
    simp only [Bool.false_eq_true, if_false] at hload
    refine ⟨_, hload, T.samples, (observations_eq hh : observationsOf s = A.ys), rfl, hmh, ?_, ?_, fun h => by cases h⟩
    · intro v
      obtain ⟨a1, -⟩ := mu_spec hE T hne ha hd v
      have hne0 : ¬ s.samples.length = 0 := by rw [T.samples]; intro e; exact hne (List.length_eq_zero_iff.1 e)
      have hok : muOk s = true := by
        unfold mu at a1
        rw [if_neg hne0] at a1
        by_contra hc
        rw [if_neg hc] at a1; cases a1
      set t1 : GpState E := { loaded t (save s) s.kf mf with L := s.L, alpha := s.alpha } with ht1
      refine ⟨_, muK t1 v (computeK t1 v), a1, ?_, ?_⟩
      · unfold mu
        rw [if_neg (show ¬ t1.samples.length = 0 from hne0), if_pos (show muOk t1 = true from hok)]
      · intro c hc
        unfold muK
        have hmo : meanObservation t1 = meanObservation s := by
          unfold meanObservation
          rw [show t1.samples = s.samples from rfl, show t1.meanObs = s.meanObs from hh.meanObs.symm]
        have : meanAt t1 v c = meanAt s v c := by
          unfold meanAt
          rw [hmo]
          exact hmop v _ c hc
        rw [this]
        rfl
    · intro v
      obtain ⟨a1, -⟩ := sigma_spec hE T hne hk v
      exact ⟨_, a1, a1⟩

/-- **C40**: for limbo's kernels and means, reading back what an up-to-date GP saved into any GP object always succeeds and restores the
data, the hyper-parameters and every prediction, with or without recomputing.  With recomputing the loaded GP equals the saved one in
every respect. -/
theorem C40_save_load (hE : LawfulEnv E) (hI : StdKernel E.K) (hM : StdMean E.M) (hn : E.KP.optimizeNoise = true → 0 < E.KP.noise)
    (hr : GpReach E A s) (hA : A.UpToDate) (hd : DataSet A.xs A.ys din dout) (t : GpState E) (recomp : Bool) (junk : Nat → Nat → ℝ) :
    ∃ t', load junk t (save s) recomp = some t' ∧ samplesOf t' = A.xs ∧ observationsOf t' = A.ys ∧
      t'.kf.hParams E.KP = s.kf.hParams E.KP ∧ E.M.hParams t'.mf = E.M.hParams s.mf ∧
      (∀ v, ∃ m m', mu s v = some m ∧ mu t' v = some m' ∧ ∀ c < dout, m c = m' c) ∧
      (∀ v, ∃ σ, sigma s v = some σ ∧ sigma t' v = some σ) ∧
      (recomp = true → SameFit s t' A.xs.length dout) :=
  saveLoad_tracks hE hI hM hn (hr.tracks hE) hA hd t recomp junk

/-- a small concrete environment: isotropic squared exponential with `σ² = l = 1`, no noise, zero mean -/
noncomputable def exEnv1 : GpEnv := ⟨expKernel 1 1, ⟨0, false⟩, nullMean, llt_contract_satisfiable.choose⟩

theorem exEnv1_lawful : LawfulEnv exEnv1 :=
  lawfulEnv_std (.exp one_pos one_pos) (le_refl (0:ℝ)) llt_contract_satisfiable.choose_spec

example : StdKernel exEnv.K ∧ StdMean exEnv.M ∧ (exEnv.KP.optimizeNoise = true → 0 < exEnv.KP.noise) :=
  ⟨.seArd 0 (by norm_num), .data, fun _ => by show (0:ℝ) < 0.01; norm_num⟩

/-- **C32, disagreement**: `load(archive, recompute = false)` does not reset the "inverse is up to date" flag.  There are a history of
calls and an archive written by `save` after which the GP claims to hold the inverse of its covariance matrix but does not. -/
theorem C32_stale_after_load : ∃ (E : GpEnv) (A : GpAbs) (st : GpState E), LawfulEnv E ∧ GpReach E A st ∧ A.xs ≠ [] ∧ st.invUpdated = true ∧
    gramM st.kf.op (st.kf.noise + 1e-8) A.xs * (Matrix.of fun i j : Fin A.xs.length => st.invKernel.e i j) ≠ 1 := by
  have hE := exEnv1_lawful
  have hd : DataSet [[(0:ℝ)]] [[1]] 1 1 := ⟨by simp, by simp, by simp, by simp, by norm_num, by norm_num⟩
  let j : Nat → Nat → ℝ := fun _ _ => 0
  -- the GP that is saved: other kernel parameters
  obtain ⟨a1, ha1, Ta1, -⟩ := track_compute hE j (track_new (E := exEnv1) (0, 0)) hd true
  have hp : a1.kf.hParamsSize exEnv1.KP ≤ [0, Real.log 2].length := le_refl 2
  have Ta2 := track_setK Ta1 [0, Real.log 2] hp
  obtain ⟨a3, ha3⟩ := recompute_progress hE j Ta2 (um := true) (uk := true) ⟨by simp [GpAbs.step], Or.inl rfl, Or.inl rfl⟩
  obtain ⟨Ta3, hk3, -⟩ := track_recompute hE j Ta2 ha3
  -- the GP that loads
  have r1 := (GpReach.new (E := exEnv1) (0, 0)).step (op := .compute _ _ true) (junk := j) trivial ha1
  obtain ⟨b2, hb2⟩ := inv_progress Ta1 hd.nonempty rfl rfl
  have r2 := r1.step (op := .computeInvKernel) (junk := j) trivial hb2
  have hb2s := (track_inv Ta1 hb2).2
  have hu2 : b2.invUpdated = true := by rw [hb2s]
  have hinv := (C32_cached_inverse hE r2 hd.nonempty rfl hu2).2.2.2
  obtain ⟨mf, -, -, -, hload⟩ := load_save (E := exEnv1) (.exp one_pos one_pos) .null (fun h => by cases h) Ta3 hd b2 false j
  simp only [Bool.false_eq_true, if_false] at hload
  have hsane : (Op.load (save a3) false).Sane := ⟨1, 1, by
    have hh3 := Ta3.hasData hd
    rw [save_rows hh3, show (save a3).samples = [[(0:ℝ)]] from Ta3.samples]; exact hd⟩
  have r3 := r2.step (op := .load (save a3) false) (junk := j) hsane hload
  have hxs : (GpAbs.step (((GpAbs.init.step (.compute [[(0:ℝ)]] [[1]] true)).step .computeInvKernel)) (.load (save a3) false)).xs = [[(0:ℝ)]] :=
    Ta3.samples
  refine ⟨exEnv1, _, _, hE, r3, by rw [hxs]; simp, hu2, ?_⟩
  -- both products would have to be one
  have e1 : ∀ k : BaseK exEnv1.K, ∀ iv : Nat → Nat → ℝ, gramM k.op (k.noise + 1e-8) [[(0:ℝ)]] * (Matrix.of fun i j : Fin [[(0:ℝ)]].length => iv i j) = 1 →
      (k.op [0] [0] + (k.noise + 1e-8)) * iv 0 0 = 1 := by
    intro k iv h
    have := congrFun (congrFun h ⟨0, by simp⟩) ⟨0, by simp⟩
    rw [Matrix.mul_apply, Finset.sum_eq_single ⟨0, by simp⟩] at this
    · simpa [gramM] using this
    · intro b _ hb
      exact absurd (Fin.ext (Nat.lt_one_iff.1 b.2)) hb
    · intro h; exact absurd (Finset.mem_univ _) h
  rw [hxs]
  intro hbad
  have h1 := e1 _ _ hinv
  have h2 := e1 _ _ hbad
  have hk2 : b2.kf = a1.kf := by rw [hb2s]
  obtain ⟨a1', ha1', -, hk1, -⟩ := track_compute hE j (track_new (E := exEnv1) (0, 0)) hd true
  rw [ha1] at ha1'
  cases ha1'
  have hkf1 : a1.kf = BaseK.mk' exEnv1.KP 1 := by rw [hk1, if_neg]; show ¬ ((-1 : Int) = ((1 : Nat) : Int)); omega
  have hkf3 : a3.kf = (BaseK.mk' exEnv1.KP 1).setHParams exEnv1.KP [0, Real.log 2] := by
    rw [hk3]; show a1.kf.setHParams exEnv1.KP [0, Real.log 2] = _; rw [hkf1]
  have v1 : (b2.kf.op [0] [0] : ℝ) = 1 ∧ b2.kf.noise = 0 := by
    rw [hk2, hkf1]
    refine ⟨?_, rfl⟩
    exact (C42_initial_variance (P := exEnv1.KP) (d := 1) one_pos one_pos 0 [0]).1
  have v3 : (a3.kf.op [0] [0] : ℝ) = 4 ∧ a3.kf.noise = 0 := by
    rw [hkf3]
    refine ⟨?_, rfl⟩
    have := (C64_isotropic_formula (P := exEnv1.KP) (sigmaSq := 1) (l₀ := 1) [0] [0] rfl 0 (Real.log 2) [] (BaseK.mk' exEnv1.KP 1) (BaseK.mk' exEnv1.KP 1)
      (BaseK.mk' exEnv1.KP 1)).1
    refine Eq.trans this ?_
    unfold docExp eucl
    simp [Real.exp_log]
    norm_num
  have h2' : (a3.kf.op [0] [0] + (a3.kf.noise + 1e-8)) * b2.invKernel.e 0 0 = 1 := h2
  rw [v1.1, v1.2] at h1
  rw [v3.1, v3.2] at h2'
  have : b2.invKernel.e 0 0 = 0 := by norm_num at h1 h2'; linarith
  rw [this] at h1
  norm_num at h1

end Limbo
