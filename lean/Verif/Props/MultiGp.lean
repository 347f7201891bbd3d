import Verif.Lemmas.MultiGp2
import Verif.Props.HpOpt
import Verif.Lemmas.GpFiles

set_option linter.unusedSectionVars false

/-!
Properties of `MultiGP`: C47 (a bank of independent GPs), C48 (incremental fitting), C49 (`recompute`), C66 (saving and loading), C67
(`ParallelLFOpt`).  The model is in `Verif/Model/MultiGp.lean`, the bookkeeping used in the statements in `Verif/Spec/MultiGp.lean`.
-/

namespace Limbo

open Finset Matrix MultiGp

variable {E : GpEnv} {ind : Bool} {B : MgAbs} {st : MultiGpState E} {din dout : Nat}

/-! ## C47 -/

/-- **C47**: component `c` of the mean prediction is the textbook posterior mean of output `c`, with the kernel of sub-model `c`. -/
theorem C47_mu_is_posterior_mean (hE : LawfulEnv E) (hr : MgReach E ind B st) (hres : B.r = true) (ha : B.a = true)
    (hd : DataSet B.xs B.ys din dout) (v : List ℝ) :
    ∃ m, MultiGp.mu st v = some m ∧ m.length = dout ∧ ∀ (c : Nat) (g : GpState E.sub), st.models[c]? = some g →
      m[c]? = some (postMean g.kf.op (MultiGp.meanFn st.mf B.ys dout) (g.kf.noise + 1e-8) B.xs B.ys v c) :=
  mu_eval hE (hr.tracks hE) hd hres ha v

/-- **C47**: component `c` of the predicted variances is the posterior variance with the kernel of sub-model `c`. -/
theorem C47_sigma_is_posterior_variance (hE : LawfulEnv E) (hr : MgReach E ind B st) (hk : B.k = true)
    (hd : DataSet B.xs B.ys din dout) (v : List ℝ) :
    ∃ m, MultiGp.sigma st v = some m ∧ m.length = dout ∧ ∀ (c : Nat) (g : GpState E.sub), st.models[c]? = some g →
      m[c]? = some ((if postVar g.kf.op (g.kf.noise + 1e-8) B.xs v ≤ 2 ^ (-52 : ℤ) then 0
        else postVar g.kf.op (g.kf.noise + 1e-8) B.xs v) + g.kf.noise) :=
  sigma_eval hE (hr.tracks hE) hd hk v

/-- **C47**: `dim_in()` and `dim_out()` fail for a `MultiGP` built without dimensions, return the dimensions it was built with, and with data
those of the data. -/
theorem C47_dimensions (hE : LawfulEnv E) (hr : MgReach E ind B st) (hd : DataSet B.xs B.ys din dout) :
    MultiGp.dimIn? st = some (din : Int) ∧ MultiGp.dimOut? st = some (dout : Int) ∧
    MultiGp.dimIn? (MultiGp.new E) = none ∧ MultiGp.dimOut? (MultiGp.new E) = none ∧
      ∀ (u : Nat → ℝ × ℝ) (i o : Nat), MultiGp.dimIn? (MultiGp.newDims E u i o) = some (i : Int) ∧ MultiGp.dimOut? (MultiGp.newDims E u i o) = some (o : Int) := by
  obtain ⟨h1, h2, -⟩ := (hr.tracks hE).dims hd
  refine ⟨?_, ?_, rfl, rfl, fun u i o => ⟨?_, ?_⟩⟩
  · unfold MultiGp.dimIn?; rw [h1, if_pos (by omega)]
  · unfold MultiGp.dimOut?; rw [h2, if_pos (by omega)]
  · exact if_pos (by show (i : Int) ≠ -1; omega)
  · exact if_pos (by show (o : Int) ≠ -1; omega)

/-- **C47**: `query(v)` is `(mu(v), sigma(v))` in every state, and fails exactly when one of them fails. -/
theorem C47_query_is_mu_sigma (st : MultiGpState E) (v : List ℝ) :
    MultiGp.query st v = (MultiGp.mu st v).bind fun m => (MultiGp.sigma st v).map fun s => (m, s) := by
  unfold MultiGp.query MultiGp.mu MultiGp.sigma
  by_cases h : st.dimOut ≤ 0 ∨ (st.models.length : Int) ≠ st.dimOut
  · rw [if_pos h, if_pos h]; rfl
  · rw [if_neg h, if_neg h, if_neg h, ← loopM_pair]
    congr 2
    funext i g
    rw [C28_query_is_mu_sigma]
    cases Gp.mu g v <;> cases Gp.sigma g v <;> rfl

/-- **C47**, the bank of independent GPs: take *any* single-output zero-mean GP, however it was fitted, with the kernel of sub-model `c`
and with component `c` of the observations minus the mean function as data.  Then component `c` of `mu(v)` is its mean prediction plus
the mean function, and component `c` of `sigma(v)` its variance. -/
theorem C47_bank_of_gps (hE : LawfulEnv E) (hr : MgReach E ind B st) (hB : B.UpToDate) (hd : DataSet B.xs B.ys din dout)
    {c : Nat} {g : GpState E.sub} (hg : st.models[c]? = some g) {A : GpAbs} {t : GpState E.sub} (ht : GpReach E.sub A t) (hA : A.UpToDate)
    (hx : A.xs = B.xs) (hy : A.ys = centred (MultiGp.meanFn st.mf B.ys dout) B.xs B.ys c) (hk : t.kf = g.kf) (v : List ℝ) :
    ∃ m σ mt σt, MultiGp.mu st v = some m ∧ MultiGp.sigma st v = some σ ∧ Gp.mu t v = some mt ∧ Gp.sigma t v = some σt ∧
      m[c]? = some (mt 0 + MultiGp.meanFn st.mf B.ys dout v c) ∧ σ[c]? = some σt := by
  obtain ⟨-, hr', hk', -, ha'⟩ := hB
  obtain ⟨hne, hAk, hAm, hAa⟩ := hA
  have hds : DataSet A.xs A.ys din 1 := by rw [hx, hy]; exact centred_dataset hd c
  obtain ⟨m, h1, -, h2⟩ := C47_mu_is_posterior_mean hE hr hr' ha' hd v
  obtain ⟨σ, g1, -, g2⟩ := C47_sigma_is_posterior_variance hE hr hk' hd v
  obtain ⟨mt, h3, h4⟩ := C27_mu_is_posterior_mean (sub_lawful hE) ht hne hAa hds v
  have g3 := C27_sigma_is_posterior_variance (sub_lawful hE) ht hne hAk v
  refine ⟨m, σ, mt, _, h1, g1, h3, g3, ?_, ?_⟩
  · rw [h2 c g hg, h4 0 Nat.one_pos, hk, hx, hy, postMean_centred _ _ _ _ _ hd.same, add_comm]
    rfl
  · rw [g2 c g hg, hk, hx]

/-- **C47**: without data the predictions are the prior. -/
theorem C47_empty_is_prior (hE : LawfulEnv E) (hr : MgReach E ind B st) (hx : B.xs = []) (hpos : 0 < st.dimOut) (v : List ℝ) :
    ∃ m σ, MultiGp.query st v = some (m, σ) ∧ ∀ (c : Nat) (g : GpState E.sub), st.models[c]? = some g →
      m[c]? = some (E.M.op st.mf v (fun _ => 0) c) ∧ σ[c]? = some (g.kf.op v v + g.kf.noise) := by
  have M := hr.tracks hE
  have hg : ¬(st.dimOut ≤ 0 ∨ (st.models.length : Int) ≠ st.dimOut) := by have := M.len; omega
  have hmu : ∀ (c : Nat) (g : GpState E.sub), st.models[c]? = some g → Gp.mu g v = some (Gp.meanAt g v) ∧ Gp.sigma g v = some (g.kf.op v v + g.kf.noise) := by
    intro c g hg
    have h0 : g.samples.length = 0 := by rw [M.samples hg, hx]; rfl
    unfold Gp.mu Gp.sigma
    rw [if_pos h0, if_pos h0]
    exact ⟨rfl, rfl⟩
  obtain ⟨m, hm⟩ := loopM_ok (f := fun i g => (Gp.mu g v).map fun m => m 0 + MultiGp.meanAt st v i) (i := 0) (l := st.models) (by
    intro n g hg
    exact ⟨_, by rw [(hmu n g hg).1]; rfl⟩)
  obtain ⟨σ, hσ⟩ := loopM_ok (f := fun _ g => Gp.sigma g v) (i := 0) (l := st.models) (by
    intro n g hg
    exact ⟨_, (hmu n g hg).2⟩)
  refine ⟨m, σ, ?_, ?_⟩
  · rw [C47_query_is_mu_sigma]
    unfold MultiGp.mu MultiGp.sigma
    rw [if_neg hg, if_neg hg, hm, hσ]; rfl
  · intro c g hgc
    obtain ⟨b, hb, hf⟩ := loopM_get hm c g hgc
    obtain ⟨b', hb', hf'⟩ := loopM_get hσ c g hgc
    rw [(hmu c g hgc).1, Option.map_some, Option.some.injEq] at hf
    rw [(hmu c g hgc).2] at hf'
    refine ⟨?_, by rw [hb', hf']⟩
    rw [hb, ← hf]
    have h1 : Gp.meanAt g v 0 = 0 := rfl
    have h2 : MultiGp.meanObservation st = fun _ => 0 := by
      unfold MultiGp.meanObservation
      rw [M.obs, M.empty hx]; rfl
    rw [h1, zero_add, Nat.zero_add]
    unfold MultiGp.meanAt
    rw [h2]

/-! ## C48 -/

/-- The bookkeeping after adding samples. -/
theorem run_adds (new : List (List ℝ × List ℝ × MultiJunk)) : ∀ (B : MgAbs), B.k = true → B.r = true → new ≠ [] →
    let B' := B.run true (new.map fun p => (.add p.1 p.2.1, p.2.2))
    B'.xs = B.xs ++ new.map (·.1) ∧ B'.ys = B.ys ++ new.map (·.2.1) ∧ B'.UpToDate := by
  induction new with
  | nil => intro B _ _ h; exact absurd rfl h
  | cons p new ih =>
    intro B hk hr _
    by_cases hn : new = []
    · subst hn
      refine ⟨by simp [MgAbs.run, MgAbs.step], by simp [MgAbs.run, MgAbs.step], ?_⟩
      simp [MgAbs.run, MgAbs.step, MgAbs.UpToDate, hk, hr]
    · obtain ⟨h1, h2, h3⟩ := ih (B.step true (.add p.1 p.2.1)) hk (by simp [MgAbs.step, hr]) hn
      refine ⟨?_, ?_, h3⟩
      · refine h1.trans ?_
        simp [MgAbs.step]
      · refine h2.trans ?_
        simp [MgAbs.step]

/-- **C48**: for a mean function that does not look at the observations, adding samples one by one gives exactly the predictions of
fitting all the data at once, for any up-to-date `MultiGP` (or a new one), and both succeed. -/
theorem C48_incremental_equals_batch (hE : LawfulEnv E) (hr : MgReach E true B st) (hk : B.k = true) (hres : B.r = true)
    (hdim : st.models = [] ∨ (st.dimIn = din ∧ st.dimOut = dout)) (new : List (List ℝ × List ℝ × MultiJunk)) (hne : new ≠ []) (junk : MultiJunk)
    (hd : DataSet (B.xs ++ new.map (·.1)) (B.ys ++ new.map (·.2.1)) din dout) :
    ∃ s t, MultiGp.run st (new.map fun p => (.add p.1 p.2.1, p.2.2)) = some s ∧
      MultiGp.compute junk st (B.xs ++ new.map (·.1)) (B.ys ++ new.map (·.2.1)) true = some t ∧
      MultiGp.observationsOf s = MultiGp.observationsOf t ∧ MultiGp.samplesOf s = MultiGp.samplesOf t ∧
      ∀ v, ∃ m σ, MultiGp.query s v = some (m, σ) ∧ MultiGp.query t v = some (m, σ) := by
  have M := hr.tracks hE
  have hl : st.models.length = dout ∨ st.models = [] := by
    rcases hdim with h | ⟨-, h⟩
    · exact Or.inr h
    · left; have := M.len; rw [h] at this; omega
  obtain ⟨s, h1, M1, hmf1, hl1, hk1⟩ := MultiGp.adds_ok hE hr.1 new M hne hd hdim
  obtain ⟨t, h2, M2, hmf2, -, -, hl2, hk2, -⟩ := compute_ok hE M junk hd true true
  obtain ⟨hx, hy, hu⟩ := run_adds new B hk hres hne
  have hu2 : (B.step true (.compute (B.xs ++ new.map (·.1)) (B.ys ++ new.map (·.2.1)) true)).UpToDate := ⟨hd.nonempty, rfl, rfl, rfl, rfl⟩
  refine ⟨s, t, h1, h2, ?_, ?_, ?_⟩
  · unfold MultiGp.observationsOf; rw [M1.obs, M2.obs]; exact hy
  · have hp := hd.dout_pos
    have e1 : s.models.head? = s.models[0]? := List.head?_eq_getElem?
    have e2 : t.models.head? = t.models[0]? := List.head?_eq_getElem?
    unfold MultiGp.samplesOf
    rw [e1, e2, List.getElem?_eq_getElem (by omega), List.getElem?_eq_getElem (by omega), Option.map_some, Option.map_some,
      M1.samples (List.getElem?_eq_getElem (by omega)), M2.samples (List.getElem?_eq_getElem (by omega))]
    exact congrArg some hx
  · intro v
    have hmf : s.mf = t.mf := by
      rw [hmf1, hmf2]
      unfold MultiGp.meanNow
      by_cases hm : st.models = []
      · have := (M.nil hm).2
        have := hd.dout_pos
        rw [if_pos hm, if_neg (by omega)]
      · rw [if_neg hm, if_pos (hdim.resolve_left hm).2]
    have hkf : s.models.map (·.kf) = t.models.map (·.kf) := by
      apply List.ext_getElem (by simp [hl1, hl2])
      intro c hc hc'
      rw [List.length_map] at hc hc'
      rw [List.getElem_map, List.getElem_map, (hk1 c _ (List.getElem?_eq_getElem hc)).1, (hk2 hl c _ (List.getElem?_eq_getElem hc')).1]
    obtain ⟨m, σ, a1, a2, a3, a4⟩ := same_of_tracks hE M1 M2 hu hu2 hx.symm hy.symm (by rw [hx, hy]; exact hd) hkf (fun _ _ _ _ => by rw [hmf]) v
    exact ⟨m, σ, by rw [C47_query_is_mu_sigma, a1, a3]; rfl, by rw [C47_query_is_mu_sigma, a2, a4]; rfl⟩

/-- limbo's mean functions that do not look at the observations -/
theorem ignores_null : nullMean.IgnoresData := fun _ _ _ _ _ => rfl

theorem ignores_const (c : ℝ) : (constMean c).IgnoresData := fun _ _ _ _ _ => rfl

theorem ignores_ard {M : MeanImpl} (h : M.IgnoresData) : (functionArd M).IgnoresData := by
  intro s x mo mo' c
  show FArdSt.op (M := M) s x mo c = FArdSt.op (M := M) s x mo' c
  unfold FArdSt.op
  have : M.op s.inner x mo = M.op s.inner x mo' := funext fun c => h _ _ _ _ c
  simp only [this]

/-- a small environment with `mean::Data` -/
noncomputable def exEnvData : GpEnv := ⟨expKernel 1 1, ⟨0, false⟩, dataMean, llt_contract_satisfiable.choose⟩

theorem exEnvData_lawful : LawfulEnv exEnvData :=
  lawfulEnv_std (.exp one_pos one_pos) (le_refl (0:ℝ)) llt_contract_satisfiable.choose_spec

/-- and one with `mean::Constant` -/
noncomputable def exEnvConst : GpEnv := ⟨expKernel 1 1, ⟨0, false⟩, constMean 0, llt_contract_satisfiable.choose⟩

theorem exEnvConst_lawful : LawfulEnv exEnvConst :=
  lawfulEnv_std (.exp one_pos one_pos) (le_refl (0:ℝ)) llt_contract_satisfiable.choose_spec

theorem exp_self (x : List ℝ) : (expKernel 1 1).kernel (IsoSt.mk' 1 1) x x = 1 := by
  simp [expKernel, IsoSt.mk', sqDist]

theorem sum_two {α : Type} {a b : α} (f : Fin [a, b].length → ℝ) : ∑ i, f i = f ⟨0, Nat.zero_lt_two⟩ + f ⟨1, Nat.one_lt_two⟩ := Fin.sum_univ_two f

theorem sum_one {α : Type} {a : α} (f : Fin [a].length → ℝ) : ∑ i, f i = f ⟨0, Nat.one_pos⟩ := Fin.sum_univ_one f

theorem mu_get {v : List ℝ} {m : List ℝ} (h : MultiGp.mu st v = some m) {c : Nat} {g : GpState E.sub} (hg : st.models[c]? = some g) :
    ∃ mg, Gp.mu g v = some mg ∧ m[c]? = some (mg 0 + MultiGp.meanAt st v c) := by
  unfold MultiGp.mu at h
  split at h
  · cases h
  · obtain ⟨b, hb, hf⟩ := loopM_get h c g hg
    rw [Option.map_eq_some_iff] at hf
    obtain ⟨mg, h1, h2⟩ := hf
    exact ⟨mg, h1, by rw [hb, ← h2, Nat.zero_add]⟩

/-- **C48, disagreement** for `mean::Data`: adding `(0, 1)` and `(1, 3)` one after the other does not give the predictions of fitting
both at once: the centred value of the first observation is not updated when the mean moves. -/
theorem C48_data_mean_differs (j : MultiJunk) : exEnvData.M = dataMean ∧ LawfulEnv exEnvData ∧ ∃ s t v,
    MultiGp.run (MultiGp.new exEnvData) [(.add [0] [1], j), (.add [1] [3], j)] = some s ∧
    MultiGp.compute j (MultiGp.new exEnvData) [[0], [1]] [[1], [3]] true = some t ∧ MultiGp.mu s v ≠ MultiGp.mu t v := by
  have hE := exEnvData_lawful
  refine ⟨rfl, hE, ?_⟩
  have hd1 : DataSet (MgAbs.init.xs ++ [[(0:ℝ)]]) (MgAbs.init.ys ++ [[1]]) 1 1 :=
    ⟨by simp, by simp [MgAbs.init], by simp [MgAbs.init], by simp [MgAbs.init], by norm_num, by norm_num⟩
  have hd : DataSet [[(0:ℝ)], [1]] [[1], [3]] 1 1 := ⟨by simp, by simp, by simp, by simp, by norm_num, by norm_num⟩
  obtain ⟨s1, h1, M1, -, hi1, ho1, hl1, hk1⟩ := add_ok hE (mtrack_new (E := exEnvData)) j hd1 (Or.inl rfl) (ind := false) (fun h => by cases h)
  obtain ⟨s, h2, M2, -, hi2, ho2, hl2, hk2⟩ := add_ok hE M1 j (x := [1]) (y := [3]) (by exact hd) (Or.inr ⟨hi1, ho1⟩) (ind := false) (fun h => by cases h)
  obtain ⟨t, h3, M3, -, -, -, hl3, hk3, -⟩ := compute_ok hE (mtrack_new (E := exEnvData)) j hd true false
  have g1e : s1.models[0]? = some (s1.models[0]'(by omega)) := List.getElem?_eq_getElem (by omega)
  have g2e : s.models[0]? = some (s.models[0]'(by omega)) := List.getElem?_eq_getElem (by omega)
  have g3e : t.models[0]? = some (t.models[0]'(by omega)) := List.getElem?_eq_getElem (by omega)
  generalize s1.models[0]'(by omega) = g1 at g1e
  generalize s.models[0]'(by omega) = g2 at g2e
  generalize t.models[0]'(by omega) = g3 at g3e
  obtain ⟨k1, d1, -⟩ := hk1 0 g1 g1e
  obtain ⟨k2, d2, hA⟩ := hk2 0 g2 g2e
  obtain ⟨k3, d3⟩ := hk3 (Or.inr rfl) 0 g3 g3e
  rw [kernAt_nil rfl] at k1 k3
  rw [kernAt_of g1e d1, k1] at k2
  obtain ⟨A, T, hAx, hAm, hAk, hAy⟩ := hA rfl
  obtain ⟨-, hAa⟩ := hAk rfl
  by_contra hcon
  push Not at hcon
  have hmu : ∀ v, MultiGp.mu s v = MultiGp.mu t v := fun v => hcon s t v (by simp [MultiGp.run, MultiGp.step, h1, h2]) h3
  obtain ⟨xs, ys, ak, am, aa, ai⟩ := A
  have hxs : xs = [[0], [1]] := hAx
  have hys : ys = [[0], [1]] := by
    have : ys = _ := hAy
    rw [this]
    have e1 : MultiGp.meanFn s.mf [[1]] 1 [0] 0 = 1 := by
      show (if 0 < 1 then dataMeanOf [[1]] 0 else 0) = (1:ℝ)
      simp [dataMeanOf, at']
    have e2 : MultiGp.meanFn s.mf [[1], [3]] 1 [1] 0 = 2 := by
      show (if 0 < 1 then dataMeanOf [[1], [3]] 0 else 0) = (2:ℝ)
      norm_num [dataMeanOf, at']
    show [[at' [1] 0 - MultiGp.meanFn s.mf [[1]] 1 [0] 0]] ++ [[at' [3] 0 - MultiGp.meanFn s.mf [[1], [3]] 1 [1] 0]] = _
    rw [e1, e2]
    norm_num [at']
  clear hAx hAy hA
  subst hxs hys
  have hds : DataSet [[(0:ℝ)], [1]] [[0], [1]] 1 1 := ⟨by simp, by simp, by simp, by simp, by norm_num, by norm_num⟩
  have hKOK : Gp.KOK (E := exEnvData.sub) g2.kf 1 := Gp.kok_of_reach (sub_lawful hE) (T.kreach (T.hasData hds))
  have key := same_pred_resid hKOK hds.inputs (r1 := resid (fun _ _ => 0) [[0], [1]] [[0], [1]] 0) (r2 := resid (fun _ _ => 2) [[0], [1]] [[1], [3]] 0) (by
    intro i
    have hv := hmu [[(0:ℝ)], [1]][i]
    obtain ⟨m, e1, -, e2⟩ := mu_eval hE M3 hd rfl rfl [[(0:ℝ)], [1]][i]
    rw [e1] at hv
    obtain ⟨mg, e3, e4⟩ := mu_get hv g2e
    rw [e2 0 g3 g3e] at e4
    obtain ⟨e5, e6⟩ := Gp.mu_spec (sub_lawful hE) T (by simp) hAa hds [[(0:ℝ)], [1]][i]
    rw [e5] at e3
    have e6 := e6 0 Nat.one_pos
    rw [Option.some.inj e3] at e6
    have ms : MultiGp.meanAt s [[(0:ℝ)], [1]][i] 0 = 2 := by
      rw [MultiGp.meanAt_eq M2.obs hd.ys_ne (M2.dims hd).2.2.2]
      show (if 0 < 1 then dataMeanOf [[1], [3]] 0 else 0) = (2:ℝ)
      norm_num [dataMeanOf, at']
    have mt : MultiGp.meanFn t.mf [[(1:ℝ)], [3]] 1 = fun _ c => if c < 1 then 2 else 0 := by
      funext v c
      show (if c < 1 then dataMeanOf [[1], [3]] c else 0) = _
      by_cases hc : c < 1
      · have : c = 0 := by omega
        subst this
        norm_num [dataMeanOf, at']
      · rw [if_neg hc, if_neg hc]
    have e4 := Option.some.inj e4
    rw [e6, ms, k3, ← k2, op_fun] at e4
    have e4 : postMean (exEnvData.K.kernel g2.kf.inner) (MultiGp.meanFn t.mf [[1], [3]] 1) (g2.kf.noise + 1e-8) [[0], [1]] [[1], [3]] [[(0:ℝ)], [1]][i] 0 = _ := e4
    rw [mt] at e4
    unfold postMean at e4
    have r2 : resid (fun _ c => if c < 1 then (2:ℝ) else 0) [[0], [1]] [[1], [3]] 0 = resid (fun _ _ => 2) [[0], [1]] [[1], [3]] 0 := rfl
    have r1 : resid (Gp.meanFn (E := exEnvData.sub) g2.mf [[0], [1]] 1) [[0], [1]] [[0], [1]] 0 = resid (fun _ _ => (0:ℝ)) [[0], [1]] [[0], [1]] 0 := rfl
    have z : Gp.meanFn (E := exEnvData.sub) g2.mf [[0], [1]] 1 [[(0:ℝ)], [1]][i] 0 = 0 := rfl
    rw [r1, r2, z] at e4
    simp only [if_pos Nat.one_pos, zero_add] at e4
    have e4 := e4.symm
    rw [add_comm] at e4
    exact add_left_cancel e4) ⟨0, by simp⟩
  have hk0 : exEnvData.sub.K.kernel g2.kf.inner [0] [0] = 1 := by rw [k2]; exact exp_self _
  unfold dotProduct kvec resid at key
  rw [sum_two, sum_two] at key
  simp [at', hk0] at key
  norm_num at key

/-! ## C49 -/

/-- **C49**, the part that holds: after any history, `recompute(true, true)` on a `MultiGP` with data succeeds, and its predictions are the
textbook predictions for the data and the present mean function and kernels. -/
theorem C49_full_recompute (hE : LawfulEnv E) (hr : MgReach E ind B st) (hd : DataSet B.xs B.ys din dout) (junk : MultiJunk) :
    ∃ st', MultiGp.recompute junk st true true = some st' ∧ MultiGp.observationsOf st' = B.ys ∧ st'.mf = st.mf ∧
      st'.models.map (·.kf) = st.models.map (·.kf) ∧
      ∀ v, ∃ m σ, MultiGp.query st' v = some (m, σ) ∧ m.length = dout ∧ σ.length = dout ∧
        ∀ (c : Nat) (g : GpState E.sub), st.models[c]? = some g →
          m[c]? = some (postMean g.kf.op (MultiGp.meanFn st.mf B.ys dout) (g.kf.noise + 1e-8) B.xs B.ys v c) ∧
          σ[c]? = some ((if postVar g.kf.op (g.kf.noise + 1e-8) B.xs v ≤ 2 ^ (-52 : ℤ) then 0
            else postVar g.kf.op (g.kf.noise + 1e-8) B.xs v) + g.kf.noise) := by
  have M := hr.tracks hE
  obtain ⟨hdi, hdo, hl, hmo⟩ := M.dims hd
  obtain ⟨st', h1, M1, hmf, -, -, hl1, hk1, -⟩ := compute_ok hE M junk hd true ind
  rw [if_pos hdo] at hmf
  have hrec : MultiGp.recompute junk st true true = some st' := by
    unfold MultiGp.recompute
    split
    · rename_i h; rw [h] at hl; have := hd.dout_pos; simp at hl; omega
    · rename_i g l h
      have hg : st.models[0]? = some g := by rw [h]; rfl
      rw [if_pos rfl, M.samples hg, M.obs, h1]
  have hkc : ∀ (c : Nat) (g g' : GpState E.sub), st.models[c]? = some g → st'.models[c]? = some g' → g'.kf = g.kf := by
    intro c g g' hg hg'
    obtain ⟨A, T, e1, -, -, -, -, -, e7⟩ := M.subs c g hg
    obtain ⟨din', hds⟩ := e7 hd.nonempty
    have hdin : din' = din := by
      obtain ⟨x, l, hxl⟩ := List.exists_cons_of_ne_nil hd.nonempty
      rw [← hds.inputs x (by rw [e1, hxl]; simp), hd.inputs x (by rw [hxl]; simp)]
    subst hdin
    rw [(hk1 (Or.inl hl) c g' hg').1, kernAt_of hg (T.hasData hds).dimIn]
  refine ⟨st', hrec, M1.obs, hmf, ?_, ?_⟩
  · apply List.ext_getElem (by simp [hl1, hl])
    intro c hc hc'
    rw [List.length_map] at hc hc'
    rw [List.getElem_map, List.getElem_map, hkc c _ _ (List.getElem?_eq_getElem hc') (List.getElem?_eq_getElem hc)]
  · intro v
    obtain ⟨m, a1, a2, a3⟩ := mu_eval hE M1 hd rfl rfl v
    obtain ⟨σ, b1, b2, b3⟩ := sigma_eval hE M1 hd rfl v
    refine ⟨m, σ, by rw [C47_query_is_mu_sigma, a1, b1]; rfl, a2, b2, ?_⟩
    intro c g hg
    have hc : c < st'.models.length := by obtain ⟨h, -⟩ := List.getElem?_eq_some_iff.1 hg; omega
    have hg' := List.getElem?_eq_getElem hc
    rw [a3 c _ hg', b3 c _ hg', hkc c g _ hg hg', hmf]
    exact ⟨rfl, rfl⟩

/-- **C49**, after a change of the kernels: as long as the centred observations held by the sub-models are those of the present mean function
(no change of its parameters since the last fit), `recompute(false, true)` succeeds after any history, and the predictions are the textbook
predictions for the present kernels. -/
theorem C49_kernel_recompute (hE : LawfulEnv E) (hr : MgReach E ind B st) (hres : B.r = true) (hm : B.m = true)
    (hd : DataSet B.xs B.ys din dout) (junk : MultiJunk) :
    ∃ st', MultiGp.recompute junk st false true = some st' ∧ MultiGp.observationsOf st' = B.ys ∧ st'.mf = st.mf ∧
      st'.models.map (·.kf) = st.models.map (·.kf) ∧
      ∀ v, ∃ m σ, MultiGp.query st' v = some (m, σ) ∧ m.length = dout ∧ σ.length = dout ∧
        ∀ (c : Nat) (g : GpState E.sub), st.models[c]? = some g →
          m[c]? = some (postMean g.kf.op (MultiGp.meanFn st.mf B.ys dout) (g.kf.noise + 1e-8) B.xs B.ys v c) ∧
          σ[c]? = some ((if postVar g.kf.op (g.kf.noise + 1e-8) B.xs v ≤ 2 ^ (-52 : ℤ) then 0
            else postVar g.kf.op (g.kf.noise + 1e-8) B.xs v) + g.kf.noise) := by
  have M := hr.tracks hE
  obtain ⟨hdi, hdo, hl, hmo⟩ := M.dims hd
  obtain ⟨ms, hms⟩ := loopM_ok (f := fun i g => Gp.recompute (junk.mat i) g false true) (i := 0) (l := st.models) (by
    intro c g hg
    obtain ⟨A, T, e1, -, e3, -, -, -, e7⟩ := M.subs c g hg
    obtain ⟨din', hds⟩ := e7 hd.nonempty
    have hh := T.hasData hds
    have hA : A.xs ≠ [] := hds.nonempty
    have hmok := T.mok hA (e3 hm)
    obtain ⟨k, l, al, e, -, -⟩ := Gp.fullKernel_form (sub_lawful hE).llt (junk.mat (0 + c)) (st := g) (T.kokd (sub_lawful hE) hh)
      (by rw [T.samples]; exact hh.data.inputs) (by rw [T.samples]; exact hmok.rows)
    refine ⟨{ g with kernel := k, L := l, alpha := al, invUpdated := false }, ?_⟩
    unfold Gp.recompute
    rw [if_neg (by rw [T.samples]; exact hA)]
    exact e)
  obtain ⟨hlen, hget⟩ := loopM_spec hms
  have hrec : MultiGp.recompute junk st false true = some { st with models := ms } := by
    unfold MultiGp.recompute
    split
    · rename_i h; rw [h] at hl; have := hd.dout_pos; simp at hl; omega
    · rw [if_neg (by simp), if_neg (by rw [hl, hdo]; simp), hms]; rfl
  have M1 := recompute_inv (ind := ind) hE M hrec
  have hst : B.step ind (.recompute false true) = ⟨B.xs, B.ys, B.r, true, true, true, true⟩ := by
    simp [MgAbs.step, hd.nonempty, hm]
  rw [hst] at M1
  have hkc : ∀ (c : Nat) (g g' : GpState E.sub), st.models[c]? = some g → ms[c]? = some g' → g'.kf = g.kf := by
    intro c g g' hg hg'
    obtain ⟨g0, hg0, hf⟩ := hget c g' hg'
    rw [hg] at hg0; cases hg0
    obtain ⟨A, T, -⟩ := M.subs c g hg
    exact (Gp.track_recompute (sub_lawful hE) _ T hf).2.1
  refine ⟨_, hrec, M.obs, rfl, ?_, ?_⟩
  · apply List.ext_getElem (by simp [hlen])
    intro c hc hc'
    rw [List.length_map] at hc hc'
    rw [List.getElem_map, List.getElem_map, hkc c _ _ (List.getElem?_eq_getElem hc') (List.getElem?_eq_getElem hc)]
  · intro v
    obtain ⟨m, a1, a2, a3⟩ := mu_eval hE M1 hd hres rfl v
    obtain ⟨σ, b1, b2, b3⟩ := sigma_eval hE M1 hd rfl v
    refine ⟨m, σ, by rw [C47_query_is_mu_sigma, a1, b1]; rfl, a2, b2, ?_⟩
    intro c g hg
    have hc : c < ms.length := by obtain ⟨h, -⟩ := List.getElem?_eq_some_iff.1 hg; omega
    have hg' := List.getElem?_eq_getElem hc
    rw [a3 c _ hg', b3 c _ hg', hkc c g _ hg hg']
    exact ⟨rfl, rfl⟩

/-- A `MultiGP` with two samples and two outputs, fitted, then given new kernel parameters for its second output, meets the hypotheses. -/
example (j : MultiJunk) (q : List ℝ) (hq : 3 ≤ q.length) : ∃ st B, MgReach exEnvConst false B st ∧ B.r = true ∧ B.m = true ∧
    B.k = false ∧ DataSet B.xs B.ys 1 2 := by
  have hE := exEnvConst_lawful
  have hd : DataSet [[(0:ℝ)], [1]] [[1, 2], [3, 5]] 1 2 := ⟨by simp, by simp, by simp, by simp, by norm_num, by norm_num⟩
  have hr0 : MgReach exEnvConst false .init (MultiGp.new exEnvConst) := .new (fun h => by cases h)
  obtain ⟨s0, h0, M0, -, -, -, hl0, hk0, -⟩ := compute_ok hE (hr0.tracks hE) j hd true false
  have hr1 := hr0.step (op := .compute [[(0:ℝ)], [1]] [[1, 2], [3, 5]] true) trivial h0
  have g1e : s0.models[1]? = some (s0.models[1]'(by omega)) := List.getElem?_eq_getElem (by omega)
  generalize s0.models[1]'(by omega) = g1 at g1e
  obtain ⟨k1, -⟩ := hk0 (Or.inr rfl) 1 g1 g1e
  rw [kernAt_nil rfl] at k1
  have hs : MultiGp.setKernelParams s0 1 q = some { s0 with models := s0.models.set 1 (Gp.setKernelParams g1 q) } := by
    unfold MultiGp.setKernelParams
    rw [g1e, Option.bind_some, if_pos (by rw [k1]; exact le_trans (by decide) hq)]
  exact ⟨_, _, hr1.step (op := .setKernelParams 1 q) (junk := j) trivial hs, rfl, rfl, rfl, hd⟩

/-- **C49**, what `recompute(true, false)` really does after a change of the mean function's parameters: every prediction moves by the
change of the prior mean at the query point only; the weights of the sub-models stay those of the old mean function. -/
theorem C49_recompute_keeps_weights (hE : LawfulEnv E) (hr : MgReach E ind B st) (hB : B.UpToDate) (hd : DataSet B.xs B.ys din dout)
    (p : List ℝ) (hp : E.M.hSize st.mf ≤ p.length) (j1 j2 : MultiJunk) :
    ∃ st', MultiGp.run st [(.setMeanParams p, j1), (.recompute true false, j2)] = some st' ∧ ∀ v, ∃ m m', MultiGp.mu st v = some m ∧
      MultiGp.mu st' v = some m' ∧ m.length = dout ∧ m'.length = dout ∧ ∀ c < dout,
        at' m' c = at' m c - MultiGp.meanFn st.mf B.ys dout v c + MultiGp.meanFn (E.M.setH st.mf p) B.ys dout v c := by
  have M := hr.tracks hE
  obtain ⟨-, hres, hk, -, ha⟩ := hB
  obtain ⟨hdi, hdo, hl, hmo⟩ := M.dims hd
  have M0 := setMean_tracks M hp ind
  obtain ⟨st', h1, M1, hmf, -, -, hl1, -, hcomp⟩ := compute_ok hE M0 j2 hd false ind
  rw [if_pos (show (MultiGp.setMeanParams st p).dimOut = dout from hdo)] at hmf
  have hrec : MultiGp.recompute j2 (MultiGp.setMeanParams st p) true false = some st' := by
    unfold MultiGp.recompute
    split
    · rename_i h
      have h : st.models = [] := h
      rw [h] at hl; have := hd.dout_pos; simp at hl; omega
    · rename_i g l h
      have hg : st.models[0]? = some g := by rw [show st.models = g :: l from h]; rfl
      rw [if_pos rfl, M.samples hg, show (MultiGp.setMeanParams st p).obs = B.ys from M.obs, h1]
  refine ⟨st', by simp [MultiGp.run, MultiGp.step, hp, hrec], ?_⟩
  intro v
  obtain ⟨m, a1, a2, -⟩ := mu_eval hE M hd hres ha v
  have hsub : ∀ (c : Nat) (g' : GpState E.sub), st'.models[c]? = some g' → ∃ g mg mg', st.models[c]? = some g ∧ Gp.mu g v = some mg ∧ Gp.mu g' v = some mg' ∧ mg' 0 = mg 0 := by
    intro c g' hg'
    obtain ⟨g, ys', hg, hds', hc⟩ := hcomp hl c g' hg'
    obtain ⟨A, T, e1, -, -, e4, -, e6, -⟩ := M.subs c g hg
    rw [hdo, Int.toNat_natCast] at e6
    have hds : DataSet A.xs A.ys din 1 := by rw [e1, e6 hres]; exact centred_dataset hd c
    rw [← e1] at hds'
    have hc : Gp.compute (j2.mat c) g A.xs ys' false = some g' := by rw [e1]; exact hc
    obtain ⟨mg, mg', q1, q2, q3⟩ := sub_compute_false hE T (e4 ha) hds hds' hc v
    exact ⟨g, mg, mg', hg, q1, q2, q3⟩
  obtain ⟨m', hm'⟩ := loopM_ok (f := fun i g => (Gp.mu g v).map fun m => m 0 + MultiGp.meanAt st' v i) (i := 0) (l := st'.models) (by
    intro n g' hg'
    obtain ⟨g, mg, mg', -, -, q, -⟩ := hsub n g' hg'
    exact ⟨_, by rw [q]; rfl⟩)
  have hmu' : MultiGp.mu st' v = some m' := by
    unfold MultiGp.mu
    rw [if_neg (guard_ok M1 hd)]; exact hm'
  refine ⟨m, m', a1, hmu', a2, by rw [(loopM_spec hm').1, hl1], ?_⟩
  intro c hc
  have hg' : st'.models[c]? = some (st'.models[c]'(by omega)) := List.getElem?_eq_getElem (by omega)
  obtain ⟨g, mg, mg', hg, q1, q2, q3⟩ := hsub c _ hg'
  obtain ⟨x1, y1, z1⟩ := mu_get a1 hg
  obtain ⟨x2, y2, z2⟩ := mu_get hmu' hg'
  rw [q1] at y1; cases y1
  rw [q2] at y2; cases y2
  unfold at'
  rw [List.getD_eq_getElem?_getD, List.getD_eq_getElem?_getD, z1, z2, Option.getD_some, Option.getD_some, q3,
    meanAt_eq M.obs hd.ys_ne hmo, meanAt_eq M1.obs hd.ys_ne (M1.dims hd).2.2.2, hmf]
  show mg 0 + MultiGp.meanFn (E.M.setH st.mf p) B.ys dout v c = _
  ring

/-- **C49, disagreement**: one sample `(0, 1)`, `mean::Constant` changed from 0 to 5.  After `recompute(true, false)` the predictions are not
those after `recompute(true, true)`, which are the textbook ones. -/
theorem C49_recompute_true_false_is_stale (j : MultiJunk) : LawfulEnv exEnvConst ∧ ∃ s t v,
    MultiGp.run (MultiGp.new exEnvConst) [(.compute [[0]] [[1]] true, j), (.setMeanParams [5], j), (.recompute true false, j)] = some s ∧
    MultiGp.run (MultiGp.new exEnvConst) [(.compute [[0]] [[1]] true, j), (.setMeanParams [5], j), (.recompute true true, j)] = some t ∧
    MultiGp.mu s v ≠ MultiGp.mu t v := by
  have hE := exEnvConst_lawful
  refine ⟨hE, ?_⟩
  have hd : DataSet [[(0:ℝ)]] [[1]] 1 1 := ⟨by simp, by simp, by simp, by simp, by norm_num, by norm_num⟩
  have hr0 : MgReach exEnvConst false .init (MultiGp.new exEnvConst) := .new (fun h => by cases h)
  obtain ⟨s0, h0, M0, hmf0, -, hdo0, hl0, hk0, -⟩ := compute_ok hE (hr0.tracks hE) j hd true false
  have hr1 : MgReach exEnvConst false ⟨[[0]], [[1]], true, true, true, true, true⟩ s0 := hr0.step (op := .compute [[0]] [[1]] true) trivial h0
  obtain ⟨s, h1, hs⟩ := C49_recompute_keeps_weights hE hr1 ⟨by simp, rfl, rfl, rfl, rfl⟩ hd [5] (le_refl 1) j j
  have hr2 : MgReach exEnvConst false ⟨[[0]], [[1]], false, true, true, true, true⟩ (MultiGp.setMeanParams s0 [5]) :=
    hr1.step (op := .setMeanParams [5]) (junk := j) trivial (by unfold MultiGp.step; exact if_pos (le_refl 1))
  obtain ⟨t, h2, -, -, -, ht⟩ := C49_full_recompute hE hr2 hd j
  have hmf0 : s0.mf = ((1, 0) : Nat × ℝ) := by rw [hmf0]; rfl
  have g0e : s0.models[0]? = some (s0.models[0]'(by omega)) := List.getElem?_eq_getElem (by omega)
  generalize s0.models[0]'(by omega) = g0 at g0e
  obtain ⟨k0, d0⟩ := hk0 (Or.inr rfl) 0 g0 g0e
  rw [kernAt_nil rfl] at k0
  by_contra hcon
  push Not at hcon
  have hmu : MultiGp.mu s [0] = MultiGp.mu t [0] := by
    refine hcon s t [0] ?_ ?_
    · have : MultiGp.run (MultiGp.new exEnvConst) [(.compute [[0]] [[1]] true, j), (.setMeanParams [5], j), (.recompute true false, j)]
          = MultiGp.run s0 [(.setMeanParams [5], j), (.recompute true false, j)] := by
        show (MultiGp.compute _ _ _ _ _).bind _ = _
        rw [h0]; rfl
      rw [this, h1]
    · have : MultiGp.run (MultiGp.new exEnvConst) [(.compute [[0]] [[1]] true, j), (.setMeanParams [5], j), (.recompute true true, j)]
          = MultiGp.run (MultiGp.setMeanParams s0 [5]) [(.recompute true true, j)] := by
        show (MultiGp.compute _ _ _ _ _).bind _ = _
        rw [h0]; rfl
      rw [this]
      show (MultiGp.recompute _ _ _ _).bind _ = _
      rw [h2]; rfl
  obtain ⟨m, m', a1, a2, a3, a4, a5⟩ := hs [0]
  obtain ⟨m'', σ, b1, b2, -, b3⟩ := ht [0]
  obtain ⟨b3, -⟩ := b3 0 g0 g0e
  have b0 : MultiGp.mu t [0] = some m'' := by
    rw [C47_query_is_mu_sigma] at b1
    cases h : MultiGp.mu t [0] with
    | none => rw [h] at b1; cases b1
    | some w =>
      rw [h] at b1
      cases h' : MultiGp.sigma t [0] with
      | none => rw [h'] at b1; cases b1
      | some w' => rw [h'] at b1; cases b1; rfl
  rw [a2, b0] at hmu
  have e := a5 0 Nat.one_pos
  obtain ⟨mm, c1, -, c3⟩ := C47_mu_is_posterior_mean hE hr1 rfl rfl hd [0]
  rw [a1] at c1; cases c1
  have c3 := c3 0 g0 g0e
  cases hmu
  unfold at' at e
  rw [List.getD_eq_getElem?_getD, List.getD_eq_getElem?_getD, b3, c3, Option.getD_some, Option.getD_some] at e
  have m0 : MultiGp.meanFn s0.mf [[(1:ℝ)]] 1 = fun _ _ => 0 := by rw [hmf0]; rfl
  have m5 : MultiGp.meanFn (E := exEnvConst) (exEnvConst.M.setH s0.mf [5]) [[(1:ℝ)]] 1 = fun _ _ => 5 := rfl
  have m5' : MultiGp.meanFn (MultiGp.setMeanParams s0 [5]).mf [[(1:ℝ)]] 1 = fun _ _ => 5 := rfl
  rw [m0, m5, m5', op_fun] at e
  have hKOK : Gp.KOK (E := exEnvConst.sub) g0.kf 1 := by
    rw [k0]
    exact Gp.kok_of_reach (sub_lawful hE) .new
  have key := same_pred_resid hKOK hd.inputs (r1 := resid (fun _ _ => 5) [[0]] [[1]] 0) (r2 := resid (fun _ _ => 0) [[0]] [[1]] 0) (by
    intro i
    have hi : [[(0:ℝ)]][i] = [0] := by
      obtain ⟨n, hn⟩ := i
      have : n = 0 := by simpa using hn
      subst this; rfl
    rw [hi]
    unfold postMean at e
    simp only [zero_add, sub_zero] at e
    rw [add_comm] at e
    exact add_right_cancel e) ⟨0, Nat.one_pos⟩
  have hkk : exEnvConst.sub.K.kernel g0.kf.inner [0] [0] = 1 := by rw [k0]; exact exp_self _
  unfold dotProduct kvec resid at key
  rw [sum_one, sum_one] at key
  simp [at', hkk] at key

/-! ## C66 -/

theorem mean_rebuild {M : MeanImpl} (hM : StdMean M) {d : Nat} {s : M.St} (hmr : MReach M d s) :
    M.hSize (M.new d) = M.hSize s ∧ (M.hParams s).length = M.hSize s ∧
    let mf := if M.hSize s > 0 then M.setH (M.new d) (M.hParams s) else M.new d
    (∀ x mo, ∀ c < d, M.op mf x mo c = M.op s x mo c) ∧ M.hParams mf = M.hParams s := by
  have hmok := std_mean_ok hM
  have hml := hmok.len d _ hmr
  have hmsz := hmok.size_eq hmr
  refine ⟨hmsz.symm, hml, ?_, ?_⟩
  · intro x mo c hc
    split
    · exact hmok.set_get d _ _ x mo c hmr .new hc
    · rename_i h0
      have e1 : M.hParams s = [] := List.length_eq_zero_iff.1 (by rw [hml]; omega)
      have e2 : M.hParams (M.new d) = [] := List.length_eq_zero_iff.1 (by rw [hmok.len d _ .new]; omega)
      rw [← hmok.set_get d _ _ x mo c hmr MReach.new hc, ← hmok.set_get d _ _ x mo c MReach.new MReach.new hc, e1, e2]
  · split
    · exact hmok.get_set d _ _ .new (by rw [hml, hmsz])
    · rename_i h0
      have e1 : M.hParams s = [] := List.length_eq_zero_iff.1 (by rw [hml]; omega)
      have e2 : M.hParams (M.new d) = [] := List.length_eq_zero_iff.1 (by rw [hmok.len d _ .new]; omega)
      rw [e1, e2]

/-- objects with the same numbers as those `g` saves -/
structure SavedLike {E : GpEnv} (b : Gp.Saved) (g : GpState E) : Prop where
  kernelParams : b.kernelParams = (Gp.save g).kernelParams
  meanParams : b.meanParams = (Gp.save g).meanParams
  samples : b.samples = g.samples
  observations : b.observations.Same g.obs
  matrixL : b.matrixL.Same g.L
  alpha : b.alpha.Same g.alpha

/-- loading objects with the same numbers as those saved -/
theorem mg_load_like (hE : LawfulEnv E) (hI : StdKernel E.K) (hM : StdMean E.M) (hn : E.KP.optimizeNoise = true → 0 < E.KP.noise)
    (hr : MgReach E ind B st) (hB : B.UpToDate) (hd : DataSet B.xs B.ys din dout) (t : MultiGpState E) (recomp : Bool) (junk : MultiJunk)
    (a : MultiGp.Saved) (had : a.dims = (st.dimIn, st.dimOut)) (hao : a.observations = st.obs) (ham : a.meanParams = (MultiGp.save st).meanParams)
    (hal : a.subs.length = st.models.length) (hsub : ∀ (c : Nat) g b, st.models[c]? = some g → a.subs[c]? = some b → SavedLike b g) :
    ∃ t', MultiGp.load junk t a recomp = some t' ∧ MultiGp.samplesOf t' = some B.xs ∧ MultiGp.observationsOf t' = B.ys ∧
      t'.models.map (fun g => g.kf.hParams E.KP) = st.models.map (fun g => g.kf.hParams E.KP) ∧ E.M.hParams t'.mf = E.M.hParams st.mf ∧
      ∀ v, ∃ m σ, MultiGp.query st v = some (m, σ) ∧ MultiGp.query t' v = some (m, σ) := by
  have M := hr.tracks hE
  obtain ⟨-, hres, hk, hm, ha⟩ := hB
  obtain ⟨hdi, hdo, hl, hmo⟩ := M.dims hd
  have hdp := hd.dout_pos
  have hmr : MReach E.M dout st.mf := by
    rcases M.reach with h | h
    · omega
    · rw [hdo, Int.toNat_natCast] at h; exact h
  obtain ⟨hsz, hlen, hop, hpar⟩ := mean_rebuild hM hmr
  set mf := if E.M.hSize st.mf > 0 then E.M.setH (E.M.new dout) (E.M.hParams st.mf) else E.M.new dout with hmfdef
  -- the sub-models
  have hsubT : ∀ (c : Nat) (g : GpState E.sub), st.models[c]? = some g → ∃ A : GpAbs, Gp.Tracks E.sub A g ∧ A.xs = B.xs ∧ A.UpToDate ∧ DataSet A.xs A.ys din 1 := by
    intro c g hg
    obtain ⟨A, T, e1, e2, e3, e4, -, e6, -⟩ := M.subs c g hg
    rw [hdo, Int.toNat_natCast] at e6
    exact ⟨A, T, e1, ⟨by rw [e1]; exact hd.nonempty, e2 hk, e3 hm, e4 ha⟩, by rw [e1, e6 hres]; exact centred_dataset hd c⟩
  have hload : ∀ (c : Nat) (g g0 : GpState E.sub), st.models[c]? = some g → ∃ g', ((a.subs[c]?).bind fun b => Gp.load (junk.mat c) g0 b false) = some g' ∧ g'.kf = g.kf ∧ g'.dimIn = din ∧
      g'.samples = B.xs ∧ (∀ v, ∃ m m', Gp.mu g v = some m ∧ Gp.mu g' v = some m' ∧ m 0 = m' 0) ∧ (∀ v, Gp.sigma g v = Gp.sigma g' v) := by
    intro c g g0 hg
    obtain ⟨A, T, e1, hA, hds⟩ := hsubT c g hg
    have hc : c < a.subs.length := by obtain ⟨h, -⟩ := List.getElem?_eq_some_iff.1 hg; omega
    have hb := List.getElem?_eq_getElem hc
    generalize a.subs[c] = b at hb
    have S := hsub c g b hg hb
    obtain ⟨g', q1, q2, -, -, -, q3, q4, -⟩ := load_like (E := E.sub) (sub_lawful hE) hI .null hn T hA hds g0 false (junk.mat c) b
      S.kernelParams S.meanParams S.samples S.observations S.matrixL S.alpha
    obtain ⟨mf0, -, -, -, q5⟩ := load_saved (E := E.sub) hI .null hn T hds g0 false (junk.mat c) b S.kernelParams S.meanParams S.samples
      S.observations.cols
    rw [hb, Option.bind_some]
    rw [q1] at q5
    simp only [Bool.false_eq_true, if_false, Option.some.injEq] at q5
    refine ⟨g', q1, by rw [q5]; rfl, ?_, by rw [← e1]; exact q2, ?_, ?_⟩
    · rw [q5]
      show ((b.samples.headD []).length : Int) = din
      rw [show b.samples = A.xs from S.samples.trans T.samples]
      obtain ⟨x, l, hxl⟩ := List.exists_cons_of_ne_nil hds.nonempty
      rw [hxl]
      exact congrArg _ (hds.inputs x (by rw [hxl]; simp))
    · intro v
      obtain ⟨m, m', w1, w2, w3⟩ := q3 v
      exact ⟨m, m', w1, w2, w3 0 Nat.one_pos⟩
    · intro v
      obtain ⟨σ, w1, w2⟩ := q4 v
      rw [w1, w2]
  have hrl : (resizeModels (E := E) junk.num t.models dout).length = dout := by simp [resizeModels]
  obtain ⟨ms, hms⟩ := loopM_ok (f := fun i g => (a.subs[i]?).bind fun b => Gp.load (junk.mat i) g b false) (i := 0)
    (l := resizeModels (E := E) junk.num t.models dout) (by
      intro c g0 hg0
      obtain ⟨hc, -⟩ := List.getElem?_eq_some_iff.1 hg0
      have hg : st.models[c]? = some (st.models[c]'(by omega)) := List.getElem?_eq_getElem (by omega)
      obtain ⟨g', q, -⟩ := hload c _ g0 hg
      refine ⟨g', ?_⟩
      rw [Nat.zero_add]; exact q)
  obtain ⟨hlms, hget⟩ := loopM_spec hms
  have hlms : ms.length = dout := by rw [hlms, hrl]
  have hfact : ∀ (c : Nat) (g g' : GpState E.sub), st.models[c]? = some g → ms[c]? = some g' → g'.kf = g.kf ∧ g'.dimIn = din ∧ g'.samples = B.xs ∧
      (∀ v, ∃ m m', Gp.mu g v = some m ∧ Gp.mu g' v = some m' ∧ m 0 = m' 0) ∧ (∀ v, Gp.sigma g v = Gp.sigma g' v) := by
    intro c g g' hg hg'
    obtain ⟨g0, -, hf⟩ := hget c g' hg'
    rw [Nat.zero_add] at hf
    obtain ⟨g2, q, w⟩ := hload c g g0 hg
    rw [hf] at q; cases q
    exact w
  let t1 : MultiGpState E := ⟨ms, din, dout, mf, B.ys, fun c => if c < dout then dataMeanOf B.ys c else 0⟩
  have hl1 : ∀ r, MultiGp.load junk t a r = if r then MultiGp.recompute junk t1 true true else some t1 := by
    intro r
    unfold MultiGp.load
    have e1 : a.dims = ((din : Int), (dout : Int)) := by rw [had, hdi, hdo]
    have e2 : a.observations = B.ys := hao.trans M.obs
    have e3 : a.meanParams = if E.M.hSize st.mf > 0 then some (E.M.hParams st.mf) else none := ham
    simp only
    rw [e1, e2, e3]
    simp only [Int.toNat_natCast]
    rw [averageObs_ok hd.outputs, Option.bind_some]
    have e4 : (if E.M.hSize (E.M.new dout) > 0 then
        (if E.M.hSize st.mf > 0 then some (E.M.hParams st.mf) else none).bind fun p => if p.length = E.M.hSize (E.M.new dout) then some (E.M.setH (E.M.new dout) p) else none
        else some (E.M.new dout)) = some mf := by
      rw [hsz, hmfdef]
      by_cases h0 : E.M.hSize st.mf > 0
      · rw [if_pos h0, if_pos h0, if_pos h0, Option.bind_some, if_pos hlen]
      · rw [if_neg h0, if_neg h0]
    rw [e4, Option.bind_some, hms, Option.bind_some]
  have hdo1 : ¬(t1.dimOut ≤ 0 ∨ (t1.models.length : Int) ≠ t1.dimOut) := by
    show ¬((dout : Int) ≤ 0 ∨ (ms.length : Int) ≠ (dout : Int))
    rw [hlms]; omega
  have hmo1 : ∀ v, ∀ c < dout, MultiGp.meanAt t1 v c = MultiGp.meanAt st v c := by
    intro v c hc
    rw [meanAt_eq (st := t1) rfl hd.ys_ne rfl, meanAt_eq M.obs hd.ys_ne hmo]
    exact hop _ _ c hc
  obtain ⟨hpt, hps⟩ : (∀ v, MultiGp.mu t1 v = MultiGp.mu st v) ∧ ∀ v, MultiGp.sigma t1 v = MultiGp.sigma st v := by
    constructor
    · intro v
      unfold MultiGp.mu
      rw [if_neg hdo1, if_neg (guard_ok M hd)]
      refine loopM_congr (by show ms.length = _; rw [hlms, hl]) ?_
      intro c g' g hg' hg
      obtain ⟨-, -, -, w, -⟩ := hfact c g g' hg hg'
      obtain ⟨m, m', w1, w2, w3⟩ := w v
      have hc : c < dout := by obtain ⟨h, -⟩ := List.getElem?_eq_some_iff.1 hg; omega
      rw [w1, w2, Option.map_some, Option.map_some, w3, Nat.zero_add, hmo1 v c hc]
    · intro v
      unfold MultiGp.sigma
      rw [if_neg hdo1, if_neg (guard_ok M hd)]
      refine loopM_congr (by show ms.length = _; rw [hlms, hl]) ?_
      intro c g' g hg' hg
      obtain ⟨-, -, -, -, w⟩ := hfact c g g' hg hg'
      exact (w v).symm
  have hq : ∀ v, ∃ m σ, MultiGp.query st v = some (m, σ) := by
    intro v
    obtain ⟨m, a1, -⟩ := mu_eval hE M hd hres ha v
    obtain ⟨σ, b1, -⟩ := sigma_eval hE M hd hk v
    exact ⟨m, σ, by rw [C47_query_is_mu_sigma, a1, b1]; rfl⟩
  have hkf1 : ms.map (·.kf) = st.models.map (·.kf) := by
    apply List.ext_getElem (by simp [hl, hlms])
    intro c hc hc'
    rw [List.length_map] at hc hc'
    rw [List.getElem_map, List.getElem_map, (hfact c _ _ (List.getElem?_eq_getElem hc') (List.getElem?_eq_getElem hc)).1]
  have hpar' : ∀ ms' : List (GpState E.sub), ms'.map (·.kf) = st.models.map (·.kf) → ms'.map (fun g => g.kf.hParams E.KP) = st.models.map (fun g => g.kf.hParams E.KP) := by
    intro ms' h
    have := congrArg (List.map fun k : BaseK E.sub.K => k.hParams E.sub.KP) h
    rw [List.map_map, List.map_map] at this
    exact this
  have hsamp : ∀ ms' : List (GpState E.sub), ms'.length = dout → (∀ (c : Nat) g', ms'[c]? = some g' → g'.samples = B.xs) → ms'.head?.map (·.samples) = some B.xs := by
    intro ms' h1 h2
    have e1 : ms'.head? = ms'[0]? := List.head?_eq_getElem?
    rw [e1, List.getElem?_eq_getElem (by omega), Option.map_some, h2 0 _ (List.getElem?_eq_getElem (by omega))]
  cases recomp with
  | false =>
    refine ⟨t1, hl1 false, ?_, rfl, hpar' ms hkf1, hpar, ?_⟩
    · refine hsamp ms hlms ?_
      intro c g' hg'
      have hc : c < st.models.length := by obtain ⟨h, -⟩ := List.getElem?_eq_some_iff.1 hg'; omega
      exact (hfact c _ g' (List.getElem?_eq_getElem hc) hg').2.2.1
    · intro v
      obtain ⟨m, σ, h⟩ := hq v
      refine ⟨m, σ, h, ?_⟩
      rw [C47_query_is_mu_sigma] at h ⊢
      rw [hpt, hps]; exact h
  | true =>
    have hsane : (MultiGp.Op.load a false).Sane := by
      refine ⟨B.xs, din, dout, by rw [hao, M.obs]; exact hd, by rw [had, hdi, hdo], by rw [hal, hl], ?_⟩
      intro b hb
      obtain ⟨c, hc, rfl⟩ := List.getElem_of_mem hb
      have hc' : c < st.models.length := by rw [← hal]; exact hc
      have S := hsub c _ _ (List.getElem?_eq_getElem hc') (List.getElem?_eq_getElem hc)
      obtain ⟨A, T, e1, hA, hds⟩ := hsubT c _ (List.getElem?_eq_getElem hc')
      refine ⟨by rw [← e1]; exact S.samples.trans T.samples, ?_⟩
      rw [rowsOf_same S.observations, show rowsOf st.models[c].obs = A.ys from save_rows (T.hasData hds), ← e1]; exact hds
    have M1 := load_inv (B := B) (ind := false) hE hsane (hl1 false)
    have hx0 : (B.step false (.load a false)).xs = B.xs := by
      have hm0 : t1.models[0]? = some (ms[0]'(by omega)) := List.getElem?_eq_getElem (by omega)
      have := M1.samples hm0
      rw [← this]
      exact (hfact 0 _ _ (List.getElem?_eq_getElem (by omega)) hm0).2.2.1
    have hy0 : (B.step false (.load a false)).ys = B.ys := hao.trans M.obs
    have hd1 : DataSet (B.step false (.load a false)).xs (B.step false (.load a false)).ys din dout := by
      rw [hx0, hy0]; exact hd
    obtain ⟨t', h2, M2, hmf2, -, -, hl2, hk2, -⟩ := compute_ok hE M1 junk hd1 true false
    have hmf2 : t'.mf = mf := by rw [hmf2, if_pos rfl]
    have hrec : MultiGp.recompute junk t1 true true = some t' := by
      unfold MultiGp.recompute
      split
      · rename_i h
        have h : ms = [] := h
        rw [h] at hlms; simp at hlms; omega
      · rename_i g l h
        have hg : t1.models[0]? = some g := by rw [h]; rfl
        rw [if_pos rfl, M1.samples hg, M1.obs, h2]
    have hkf2 : t'.models.map (·.kf) = st.models.map (·.kf) := by
      rw [← hkf1]
      apply List.ext_getElem (by simp [hl2, hlms])
      intro c hc hc'
      rw [List.length_map] at hc hc'
      have hg1 : t1.models[c]? = some ms[c] := List.getElem?_eq_getElem hc'
      have hdin := (hfact c _ _ (List.getElem?_eq_getElem (by omega)) hg1).2.1
      rw [List.getElem_map, List.getElem_map, (hk2 (Or.inl hlms) c _ (List.getElem?_eq_getElem hc)).1, kernAt_of hg1 hdin]
    refine ⟨t', by rw [hl1]; exact hrec, ?_, ?_, hpar' _ hkf2, by rw [hmf2]; exact hpar, ?_⟩
    · refine hsamp _ hl2 ?_
      intro c g' hg'
      rw [← hx0]
      exact M2.samples hg'
    · unfold MultiGp.observationsOf
      rw [M2.obs]; exact hy0
    · intro v
      obtain ⟨m, σ, a1, a2, a3, a4⟩ := same_of_tracks hE M M2 ⟨hd.nonempty, hres, hk, hm, ha⟩ ⟨hd1.nonempty, rfl, rfl, rfl, rfl⟩ hx0 hy0 hd hkf2.symm
        (fun v mo c hc => by rw [hmf2]; exact (hop v mo c hc).symm) v
      exact ⟨m, σ, by rw [C47_query_is_mu_sigma, a1, a3]; rfl, by rw [C47_query_is_mu_sigma, a2, a4]; rfl⟩

/-- **C66**: for limbo's kernels and means, reading back what an up-to-date `MultiGP` saved, into any `MultiGP` object, always succeeds and
restores the data, the hyper-parameters and every prediction, with or without recomputing. -/
theorem C66_save_load (hE : LawfulEnv E) (hI : StdKernel E.K) (hM : StdMean E.M) (hn : E.KP.optimizeNoise = true → 0 < E.KP.noise)
    (hr : MgReach E ind B st) (hB : B.UpToDate) (hd : DataSet B.xs B.ys din dout) (t : MultiGpState E) (recomp : Bool) (junk : MultiJunk) :
    ∃ t', MultiGp.load junk t (MultiGp.save st) recomp = some t' ∧ MultiGp.samplesOf t' = some B.xs ∧ MultiGp.observationsOf t' = B.ys ∧
      t'.models.map (fun g => g.kf.hParams E.KP) = st.models.map (fun g => g.kf.hParams E.KP) ∧ E.M.hParams t'.mf = E.M.hParams st.mf ∧
      ∀ v, ∃ m σ, MultiGp.query st v = some (m, σ) ∧ MultiGp.query t' v = some (m, σ) :=
  mg_load_like hE hI hM hn hr hB hd t recomp junk (MultiGp.save st) rfl rfl rfl (by simp [MultiGp.save]) (by
    intro c g b hg hb
    have : (MultiGp.save st).subs[c]? = some (Gp.save g) := by simp [MultiGp.save, hg]
    rw [this] at hb
    cases hb
    exact ⟨rfl, rfl, rfl, ⟨rfl, rfl, fun _ _ _ _ => rfl⟩, ⟨rfl, rfl, fun _ _ _ _ => rfl⟩, ⟨rfl, rfl, fun _ _ _ _ => rfl⟩⟩)

/-! ## C67 -/

theorem lik_centred (k : List ℝ → List ℝ → ℝ) (m : List ℝ → Nat → ℝ) (s : ℝ) (xs ys : List (List ℝ)) (h : ys.length = xs.length) (c : Nat) :
    logMarginal k (fun _ _ => 0) s xs (centred m xs ys c) 0 = logMarginal k m s xs ys c := by
  unfold logMarginal
  rw [resid_centred m xs ys h c]

/-- **C67**: `ParallelLFOpt` with Rprop (any number ≥ 1 of iterations for each sub-model) on an up-to-date `MultiGP` succeeds, keeps the data
and the mean function, leaves the fit up to date, and for every output the log marginal likelihood does not decrease. -/
theorem C67_parallel_lf_opt (hE : LawfulEnv E) (hI : StdKernel E.K) (hn : E.KP.optimizeNoise = true → 0 < E.KP.noise) (hr : MgReach E ind B st)
    (hB : B.UpToDate) (hd : DataSet B.xs B.ys din dout) (iterations : Nat → Int) (hit : ∀ c, 0 < iterations c) (epsStop : Nat → XR)
    (he : ∀ c, le (lit 0) (epsStop c) = true) (J : Nat → List ℝ → Nat → Nat → ℝ) (junk : MultiJunk) :
    ∃ st', MultiGp.step st (.hpOpt false (fun c => rprop (iterations c) (epsStop c)) J) junk = some st' ∧
      MgReach E ind { B with i := true } st' ∧ st'.mf = st.mf ∧ st'.models.length = dout ∧
      ∀ (c : Nat) (g g' : GpState E.sub), st.models[c]? = some g → st'.models[c]? = some g' →
        logMarginal g.kf.op (MultiGp.meanFn st.mf B.ys dout) (g.kf.noise + 1e-8) B.xs B.ys c
          ≤ logMarginal g'.kf.op (MultiGp.meanFn st.mf B.ys dout) (g'.kf.noise + 1e-8) B.xs B.ys c := by
  have M := hr.tracks hE
  have hB0 := hB
  obtain ⟨hne, hres, hk, hm, ha⟩ := hB
  obtain ⟨hdi, hdo, hl, hmo⟩ := M.dims hd
  have hsub : ∀ (c : Nat) (g : GpState E.sub), st.models[c]? = some g → ∃ g', Gp.kernelLFOpt (rprop (iterations c) (epsStop c)) (J c) (junk.mat c) g = some g' ∧
      logMarginal g.kf.op (MultiGp.meanFn st.mf B.ys dout) (g.kf.noise + 1e-8) B.xs B.ys c
          ≤ logMarginal g'.kf.op (MultiGp.meanFn st.mf B.ys dout) (g'.kf.noise + 1e-8) B.xs B.ys c := by
    intro c g hg
    obtain ⟨A, T, e1, e2, e3, e4, -, e6, -⟩ := M.subs c g hg
    rw [hdo, Int.toNat_natCast] at e6
    have hA : A.UpToDate := ⟨by rw [e1]; exact hne, e2 hk, e3 hm, e4 ha⟩
    have hds : DataSet A.xs A.ys din 1 := by rw [e1, e6 hres]; exact centred_dataset hd c
    obtain ⟨g', v, v', h1, h2, h3, h4⟩ := kernel_lf_opt_tracks (E := E.sub) (sub_lawful hE) hI hn T hA hds (hit c) (he c) (J c) (junk.mat c)
    refine ⟨g', h1, ?_⟩
    have hlog : ∀ (u : GpState E.sub) (A' : GpAbs), Gp.Tracks E.sub A' u → A'.xs = A.xs → A'.ys = A.ys → A'.UpToDate → ∀ w, (Gp.computeLogLik u).map (·.2) = some w →
        w = logMarginal u.kf.op (MultiGp.meanFn st.mf B.ys dout) (u.kf.noise + 1e-8) B.xs B.ys c := by
      intro u A' T' hx hy hu w hw
      have hds' : DataSet A'.xs A'.ys din 1 := by rw [hx, hy]; exact hds
      obtain ⟨z, z1, z2⟩ := logLik_spec (sub_lawful hE) T' hu hds'
      rw [z1, Option.map_some, Option.some.injEq] at hw
      rw [← hw, z2, Finset.sum_range_one, hx, hy, e1, e6 hres, op_fun, ← lik_centred _ _ _ _ _ hd.same c]
      simp only [Nat.cast_one, sub_self, zero_mul, add_zero]
      rfl
    obtain ⟨-, T'⟩ := hp_tracks (loo := false) (sub_lawful hE) T h1
    rw [← hlog g A T rfl rfl hA v h2, ← hlog g' _ T' rfl rfl ⟨hA.1, rfl, hA.2.2.1, hA.2.2.1⟩ v' h3]
    exact h4
  obtain ⟨ms, hms⟩ := loopM_ok (f := fun c g => Gp.kernelLFOpt (rprop (iterations c) (epsStop c)) (J c) (junk.mat c) g) (i := 0) (l := st.models) (by
    intro c g hg
    obtain ⟨g', h, -⟩ := hsub c g hg
    exact ⟨g', by simp only [Nat.zero_add]; exact h⟩)
  have hst : MultiGp.step st (.hpOpt false (fun c => rprop (iterations c) (epsStop c)) J) junk = some { st with models := ms } := by
    show (loopM _ 0 st.models).map _ = _
    rw [hms]; rfl
  refine ⟨_, hst, ?_, rfl, by show ms.length = dout; rw [(loopM_spec hms).1, hl], ?_⟩
  · have := hr.step (op := .hpOpt false (fun c => rprop (iterations c) (epsStop c)) J) trivial hst
    have hB' : B.step ind (.hpOpt false (fun c => rprop (iterations c) (epsStop c)) J) = { B with i := true } := by
      simp only [MgAbs.step, List.isEmpty_eq_false_iff.2 hne, Bool.false_eq_true, if_false]
      rw [hk, ha, hm]
    rw [hB'] at this; exact this
  · intro c g g' hg hg'
    obtain ⟨b, hb, hf⟩ := loopM_get hms c g hg
    rw [show ms[c]? = some g' from hg'] at hb
    cases hb
    obtain ⟨g2, w1, w2⟩ := hsub c g hg
    rw [Nat.zero_add, w1] at hf
    cases hf
    exact w2

/-! ## Non-trivial cases -/

/-- A `MultiGP` with two outputs, two samples added one by one, then fitted again; for `mean::Constant` the fit is up to date. -/
theorem exMgReach : ∃ st, MgReach exEnvConst true ⟨[[0], [1]], [[1, 2], [3, 5]], true, true, true, true, true⟩ st ∧ st.dimIn = 1 ∧ st.dimOut = 2 := by
  have hE := exEnvConst_lawful
  let j : MultiJunk := ⟨fun _ _ _ => 0, fun _ => (0, 0)⟩
  have hr0 : MgReach exEnvConst true .init (MultiGp.new exEnvConst) := .new (fun _ => ignores_const 0)
  obtain ⟨s1, h1, M1, -, hi1, ho1, -, -⟩ := add_ok hE (hr0.tracks hE) j (x := [0]) (y := [1, 2]) (din := 1) (dout := 2)
    ⟨by simp, by simp [MgAbs.init], by simp [MgAbs.init], by simp [MgAbs.init], by norm_num, by norm_num⟩ (Or.inl rfl) (ind := true) (fun _ => ignores_const 0)
  have hr1 := hr0.step (op := .add [0] [1, 2]) trivial h1
  obtain ⟨s2, h2, M2, -, hi2, ho2, -, -⟩ := add_ok hE M1 j (x := [1]) (y := [3, 5]) (din := 1) (dout := 2)
    ⟨by simp, by simp [MgAbs.init, MgAbs.step], by simp [MgAbs.init, MgAbs.step], by simp [MgAbs.init, MgAbs.step], by norm_num, by norm_num⟩
    (Or.inr ⟨hi1, ho1⟩) (ind := true) (fun _ => ignores_const 0)
  exact ⟨s2, hr1.step (op := .add [1] [3, 5]) trivial h2, hi2, ho2⟩

example : DataSet [[(0:ℝ)], [1]] [[1, 2], [3, 5]] 1 2 := ⟨by simp, by simp, by simp, by simp, by norm_num, by norm_num⟩

example : (⟨[[0], [1]], [[1, 2], [3, 5]], true, true, true, true, true⟩ : MgAbs).UpToDate := ⟨by simp, rfl, rfl, rfl, rfl⟩

example : StdKernel exEnvConst.K ∧ StdMean exEnvConst.M ∧ (exEnvConst.KP.optimizeNoise = true → 0 < exEnvConst.KP.noise) :=
  ⟨.exp one_pos one_pos, .const 0, fun h => by cases h⟩

end Limbo
