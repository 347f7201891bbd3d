import Verif.Lemmas.GpObs2
import Verif.Props.Kernel

/-!
Gaussian processes: C26-C33, C40, C41, C43, C65.

`GpReach E A st`: the GP `st` results from some sequence of API calls, for which the user's bookkeeping (`Spec/GpHist.lean`) is `A`.
All theorems hold for every kernel, mean function and Cholesky routine satisfying `LawfulEnv`; `lawfulEnv_std` shows that limbo's
kernels do.  The real-number operations are exact (no rounding).
-/

namespace Limbo

open Finset Gp Matrix

variable {E : GpEnv} {A B : GpAbs} {st s t : GpState E} {din dout : Nat}

theorem op_fun (k : BaseK E.K) : k.op = E.K.kernel k.inner := by
  funext x y; exact op_eq k x y

/-- A concrete GP: `SquaredExpARD` with `σ² = 2`, noise 0.01, the `Data` mean, and a Cholesky routine that exists. -/
noncomputable def exEnv : GpEnv := ⟨seArd 0 2, ⟨0.01, true⟩, dataMean, llt_contract_satisfiable.choose⟩

theorem exEnv_lawful : LawfulEnv exEnv :=
  lawfulEnv_std (.seArd 0 (by norm_num)) (by show (0:ℝ) ≤ 0.01; norm_num) llt_contract_satisfiable.choose_spec

theorem exData : DataSet [[0, 1], [2, 3], [0, 1]] [[1], [5], [2]] 2 1 :=
  ⟨by simp, by simp, by simp, by simp, by norm_num, by norm_num⟩

/-- the hypotheses of the theorems below are met: a GP with three samples, two of them equal -/
theorem exReach : ∃ st, GpReach exEnv ⟨[[0, 1], [2, 3], [0, 1]], [[1], [5], [2]], true, true, true, true⟩ st := by
  obtain ⟨st, h, _⟩ := track_compute exEnv_lawful (fun _ _ => 7) (track_new (E := exEnv) (0, 0)) exData true
  exact ⟨st, (GpReach.new (E := exEnv) (0, 0)).step (op := .compute _ _ true) (junk := fun _ _ => 7) trivial h⟩

example : ∃ A st, GpReach exEnv A st ∧ A.UpToDate ∧ DataSet A.xs A.ys 2 1 ∧ A.xs.length = 3 := by
  obtain ⟨st, h⟩ := exReach
  exact ⟨_, st, h, ⟨by simp, rfl, rfl, rfl⟩, exData, rfl⟩

/-! ## C65: the data -/

/-- **C65**: `dim_in()` and `dim_out()` fail for a GP built without dimensions, return the dimensions it was built with, and with data
those of the data. -/
theorem C65_dimensions (hE : LawfulEnv E) (hr : GpReach E A st) {din dout : Nat} (hd : DataSet A.xs A.ys din dout) :
    dimIn? st = some (din : Int) ∧ dimOut? st = some (dout : Int) ∧
    ∀ (u : ℝ × ℝ), dimIn? (Gp.new E u) = none ∧ dimOut? (Gp.new E u) = none ∧
      ∀ i o : Nat, dimIn? (Gp.newDims E u i o) = some (i : Int) ∧ dimOut? (Gp.newDims E u i o) = some (o : Int) := by
  have hh := (hr.tracks hE).hasData hd
  refine ⟨?_, ?_, fun u => ⟨rfl, rfl, fun i o => ⟨?_, ?_⟩⟩⟩
  · unfold dimIn?; rw [hh.dimIn, if_pos (by omega)]
  · unfold dimOut?; rw [hh.dimOut, if_pos (by omega)]
  · exact if_pos (by show (i : Int) ≠ -1; omega)
  · exact if_pos (by show (o : Int) ≠ -1; omega)

/-- **C65**: `samples()` and `observations()` always return exactly the data given so far. -/
theorem C65_data (hE : LawfulEnv E) (hr : GpReach E A st) : samplesOf st = A.xs ∧ observationsOf st = A.ys := by
  have T := hr.tracks hE
  refine ⟨T.samples, ?_⟩
  by_cases h : A.xs = []
  · unfold observationsOf
    rw [(T.empty h).1, (T.empty h).2.2]; rfl
  · obtain ⟨_, _, hh⟩ := T.ne h
    exact observations_eq hh

/-- **C65**: every call with matching sizes succeeds (no assertion can fail), in every reachable state. -/
theorem C65_calls_succeed (hE : LawfulEnv E) (hr : GpReach E A st) {op : Op} (junk : Nat → Nat → ℝ) (hc : A.Callable op)
    (hk : ∀ p, op = .setKernelParams p → st.kf.hParamsSize E.KP ≤ p.length) (hm : ∀ p, op = .setMeanParams p → E.M.hSize st.mf ≤ p.length) :
    ∃ st', step st op junk = some st' :=
  step_progress hE junk (hr.tracks hE) hc hk hm

/-- **C65**: `max_observation()` is the largest number among all the observations, `mean_observation()` their average, component by
component. -/
theorem C65_max_mean_observation (hE : LawfulEnv E) (hr : GpReach E A st) (hd : DataSet A.xs A.ys din dout) :
    (∃ m, maxObservation st = some m ∧ IsGreatest {r | ∃ y ∈ A.ys, r ∈ y} m) ∧
    ∀ c < dout, meanObservation st c = (A.ys.map fun y => y.getD c 0).sum / (A.ys.length : ℝ) := by
  have hh := (hr.tracks hE).hasData hd
  have hlen := hd.same
  have hpos := List.length_pos_iff.2 hd.nonempty
  constructor
  · unfold maxObservation
    have hne : (range st.obs.rows ×ˢ range st.obs.cols).Nonempty := by
      rw [hh.obsRows, hh.obsCols]
      exact ⟨(0, 0), by simp [hpos, hd.dout_pos]⟩
    rw [dif_pos hne]
    refine ⟨_, rfl, ?_, ?_⟩
    · obtain ⟨⟨i, c⟩, hm, e⟩ := Finset.exists_mem_eq_sup' hne fun ij => st.obs.e ij.1 ij.2
      rw [e]
      simp only [mem_product, mem_range] at hm
      rw [hh.obsRows, hh.obsCols] at hm
      have hi : i < A.ys.length := by omega
      refine ⟨A.ys[i], List.getElem_mem _, ?_⟩
      have hc : c < A.ys[i].length := by rw [hd.outputs _ (List.getElem_mem _)]; exact hm.2
      rw [hh.obsE i hm.1 c hm.2, List.getD_eq_getElem _ _ hi]
      unfold at'
      rw [List.getD_eq_getElem _ _ hc]
      exact List.getElem_mem _
    · rintro r ⟨y, hy, hr'⟩
      obtain ⟨i, hi, rfl⟩ := List.getElem_of_mem hy
      obtain ⟨c, hc, rfl⟩ := List.getElem_of_mem hr'
      have hcd : c < dout := by rw [hd.outputs _ (List.getElem_mem _)] at hc; exact hc
      have : A.ys[i][c] = st.obs.e i c := by
        rw [hh.obsE i (by omega) c hcd, List.getD_eq_getElem _ _ hi]
        unfold at'
        rw [List.getD_eq_getElem _ _ hc]
      rw [this]
      exact Finset.le_sup' (fun ij : Nat × Nat => st.obs.e ij.1 ij.2) (b := (i, c))
        (by simp only [mem_product, mem_range]; rw [hh.obsRows, hh.obsCols]; exact ⟨by omega, hcd⟩)
  · intro c hc
    rw [meanObservation_eq hh]
    simp only [if_pos hc]
    rfl

/-! ## C26 -/

/-- **C26**: adding samples one at a time equals computing from scratch on all of them, from every state whose factor is valid (in
particular an empty GP, or one just computed on a prefix). -/
theorem C26_incremental_equals_batch (hE : LawfulEnv E) (hr : GpReach E A st) (hk : A.k = true)
    (new : List (List ℝ × List ℝ × (Nat → Nat → ℝ))) (hne : new ≠ []) (junk : Nat → Nat → ℝ)
    (hd : DataSet (A.xs ++ new.map (·.1)) (A.ys ++ new.map (·.2.1)) din dout) :
    ∃ s t, run st (new.map fun p => (.add p.1 p.2.1, p.2.2)) = some s ∧
      compute junk st (A.xs ++ new.map (·.1)) (A.ys ++ new.map (·.2.1)) true = some t ∧
      SameFit s t (A.xs ++ new.map (·.1)).length dout := by
  have T := hr.tracks hE
  obtain ⟨s, h1, T1, hk1, hm1, -, -⟩ := adds_ok hE new T hd hne
  obtain ⟨t, h2, T2, hk2, hm2, -, -⟩ := track_compute hE junk T hd true
  refine ⟨s, t, h1, h2, ?_⟩
  exact sameFit_of_tracks hE T1 T2 rfl rfl ⟨hd.nonempty, hk, rfl, hk⟩ ⟨hd.nonempty, rfl, rfl, rfl⟩ hd (by rw [hk1, hk2])
    (fun _ _ _ _ => by rw [hm1, hm2])

/-- **C26**: whatever the two histories, two up-to-date GPs with the same data and the same kernel and mean parameters agree. -/
theorem C26_history_independent (hE : LawfulEnv E) (hs : GpReach E A s) (ht : GpReach E B t) (hA : A.UpToDate) (hB : B.UpToDate)
    (hx : A.xs = B.xs) (hy : A.ys = B.ys) (hd : DataSet A.xs A.ys din dout) (hk : s.kf = t.kf) (hm : s.mf = t.mf) :
    SameFit s t A.xs.length dout :=
  sameFit_of_tracks hE (hs.tracks hE) (ht.tracks hE) hx hy hA hB hd hk (fun _ _ _ _ => by rw [hm])

/-! ## C27, C28, C29 -/

/-- **C27**: the mean prediction is the posterior mean, output by output. -/
theorem C27_mu_is_posterior_mean (hE : LawfulEnv E) (hr : GpReach E A st) (hne : A.xs ≠ []) (ha : A.a = true)
    (hd : DataSet A.xs A.ys din dout) (v : List ℝ) :
    ∃ m, mu st v = some m ∧
      ∀ c < dout, m c = postMean st.kf.op (meanFn st.mf A.ys dout) (st.kf.noise + 1e-8) A.xs A.ys v c := by
  rw [op_fun]
  exact ⟨_, mu_spec hE (hr.tracks hE) hne ha hd v⟩

/-- **C27**: the predicted variance is the posterior variance (set to zero when at most `DBL_EPSILON`) plus the noise. -/
theorem C27_sigma_is_posterior_variance (hE : LawfulEnv E) (hr : GpReach E A st) (hne : A.xs ≠ []) (hk : A.k = true) (v : List ℝ) :
    sigma st v = some ((if postVar st.kf.op (st.kf.noise + 1e-8) A.xs v ≤ 2 ^ (-52 : ℤ) then 0
      else postVar st.kf.op (st.kf.noise + 1e-8) A.xs v) + st.kf.noise) := by
  obtain ⟨h1, h2⟩ := sigma_spec hE (hr.tracks hE) hne hk v
  rw [op_fun, h1, h2]
  have : dblEps = 2 ^ (-52 : ℤ) := by unfold dblEps; norm_num
  rw [this]

/-- **C28**: `query(v)` is `(mu(v), sigma(v))` in every state, and fails exactly when one of them fails. -/
theorem C28_query_is_mu_sigma (st : GpState E) (v : List ℝ) :
    query st v = (mu st v).bind fun m => (sigma st v).map fun s => (m, s) := by
  unfold query mu sigma
  by_cases h : st.samples.length = 0
  · simp only [h, if_true, Option.bind_some, Option.map_some]
  · simp only [h, if_false]
    by_cases h1 : muOk st = true
    · by_cases h2 : sigmaOk st = true
      · simp [h1, h2]
      · simp [h1, h2]
    · simp [h1]

/-- **C28**: with no data, the prediction is the prior. -/
theorem C28_empty_is_prior (hE : LawfulEnv E) (hr : GpReach E A st) (hx : A.xs = []) (v : List ℝ) :
    query st v = some (fun c => E.M.op st.mf v (fun _ => 0) c, st.kf.op v v + st.kf.noise) := by
  have hs : st.samples.length = 0 := by rw [(hr.tracks hE).samples, hx]; rfl
  unfold query
  rw [if_pos hs]
  have : meanObservation st = fun _ => 0 := by unfold meanObservation; rw [hs]; rfl
  simp only [Option.some.injEq, Prod.mk.injEq, and_true]
  funext c
  unfold meanAt
  rw [this]

/-- **C29**: `noise ≤ sigma(v) ≤ k(v,v) + noise`. -/
theorem C29_variance_bounds (hE : LawfulEnv E) (hr : GpReach E A st) (hk : A.k = true) (v : List ℝ) (hv : (v.length : Int) = st.dimIn) :
    ∃ r, sigma st v = some r ∧ st.kf.noise ≤ r ∧ r ≤ st.kf.op v v + st.kf.noise := by
  have T := hr.tracks hE
  by_cases hx : A.xs = []
  · have hs : st.samples.length = 0 := by rw [T.samples, hx]; rfl
    refine ⟨st.kf.op v v + st.kf.noise, ?_, ?_, le_refl _⟩
    · unfold sigma; rw [if_pos hs]
    · rcases T.reach.1 with h | h
      · omega
      · rw [← hv] at h
        have := (kok_of_reach hE h).cov.psd [v] (by simp) (fun _ => 1)
        rw [op_fun]
        simp at this
        linarith
  · obtain ⟨din, dout, hh⟩ := T.ne hx
    obtain ⟨h1, h2⟩ := sigmaK_bounds hE T hh v (by have := hh.dimIn; omega) (computeK st v)
    refine ⟨_, (sigma_spec hE T hx hk v).1, by linarith, ?_⟩
    rw [op_fun]; linarith

/-! ## C30 -/

/-- **C30**: adding a sample never increases the predicted variance.  (On an empty GP the first sample may fix the dimension, which
rebuilds the kernel; the claim is for unchanged hyper-parameters.) -/
theorem C30_variance_decreases (hE : LawfulEnv E) (hr : GpReach E A st) (hk : A.k = true) (x y : List ℝ) (junk : Nat → Nat → ℝ)
    (h : addSample junk st x y = some t) (hkf : A.xs = [] → t.kf = st.kf) (v : List ℝ) (hv : v.length = x.length) :
    ∃ r r', sigma st v = some r ∧ sigma t v = some r' ∧ r' ≤ r := by
  have T := hr.tracks hE
  have hd := addSample_dataset junk T h
  obtain ⟨t', h', T', hkt, -, hi', -⟩ := track_add hE junk T hd
  rw [h] at h'
  cases h'
  have hne : (A.step (.add x y)).xs ≠ [] := by simp [GpAbs.step]
  have h2 := (sigma_spec hE T' hne hk v).1
  by_cases hx : A.xs = []
  · have hs : st.samples.length = 0 := by rw [T.samples, hx]; rfl
    refine ⟨st.kf.op v v + st.kf.noise, _, ?_, h2, ?_⟩
    · unfold sigma; rw [if_pos hs]
    · have hh := T'.hasData hd
      have := (sigmaK_bounds hE T' hh v hv (computeK t v)).2
      rw [← hkf hx, op_fun]; linarith
  · have hkk : st.kf = t.kf := by
      obtain ⟨din, dout, hh⟩ := T.ne hx
      have hdim : st.dimIn = (x.length : Int) := by
        rw [hh.dimIn]
        obtain ⟨z, hz⟩ := List.exists_mem_of_ne_nil _ hx
        rw [← hh.data.inputs z hz, ← hd.inputs z (by simp [hz])]
      rw [hkt, if_pos hdim]
    refine ⟨_, _, (sigma_spec hE T hx hk v).1, h2, ?_⟩
    have := sigmaK_mono T T' hkk (x := [x]) rfl hk hk v
    rw [hkk]
    linarith

/-! ## C31 -/

/-- **C31**: permuting the (sample, observation) pairs changes neither the predictions nor the log-likelihood. -/
theorem C31_order_irrelevant (hE : LawfulEnv E) (hr : GpReach E A st) (xs ys xs' ys' : List (List ℝ)) (hd : DataSet xs ys din dout)
    (hd' : DataSet xs' ys' din dout) (hp : (xs.zip ys).Perm (xs'.zip ys')) (junk junk' : Nat → Nat → ℝ) :
    ∃ s t, compute junk st xs ys true = some s ∧ compute junk' st xs' ys' true = some t ∧
      (∀ v, ∃ m m', mu s v = some m ∧ mu t v = some m' ∧ ∀ c < dout, m c = m' c) ∧
      (∀ v, ∃ r, sigma s v = some r ∧ sigma t v = some r) ∧
      ∃ r, (computeLogLik s).map (·.2) = some r ∧ (computeLogLik t).map (·.2) = some r := by
  have T := hr.tracks hE
  obtain ⟨s, h1, T1, hk1, hm1, -, -⟩ := track_compute hE junk T hd true
  obtain ⟨t, h2, T2, hk2, hm2, -, -⟩ := track_compute hE junk' T hd' true
  have hk : t.kf = s.kf := by rw [hk1, hk2]
  have hm : t.mf = s.mf := by rw [hm1, hm2]
  obtain ⟨σ, hσ⟩ := zip_perm hd.same hd'.same hp
  have hmean : meanFn s.mf ys' dout = meanFn s.mf ys dout := by
    unfold meanFn
    rw [show (fun c => if c < dout then dataMeanOf ys' c else 0) = fun c => if c < dout then dataMeanOf ys c else 0 by
      funext c; rw [dataMean_perm hd.same hd'.same hp]]
  have hlen : xs'.length = xs.length := by simpa using Fintype.card_congr σ
  set k := E.K.kernel s.kf.inner with hkdef
  set sg := s.kf.noise + 1e-8 with hsg
  refine ⟨s, t, h1, h2, fun v => ?_, fun v => ?_, ?_⟩
  · obtain ⟨a1, b1⟩ := mu_spec hE T1 hd.nonempty rfl hd v
    obtain ⟨a2, b2⟩ := mu_spec hE T2 hd'.nonempty rfl hd' v
    refine ⟨_, _, a1, a2, fun c hc => ?_⟩
    have c1 : _ = postMean k (meanFn s.mf ys dout) sg xs ys v c := b1 c hc
    have c2 : _ = postMean (E.K.kernel t.kf.inner) (meanFn t.mf ys' dout) (t.kf.noise + 1e-8) xs' ys' v c := b2 c hc
    rw [c1, c2, hk, hm, hmean, postMean_perm _ _ _ v c σ hσ]
  · obtain ⟨a1, b1⟩ := sigma_spec hE T1 hd.nonempty rfl v
    obtain ⟨a2, b2⟩ := sigma_spec hE T2 hd'.nonempty rfl v
    refine ⟨_, a1, ?_⟩
    have c1 : _ = if postVar k sg xs v ≤ dblEps then 0 else postVar k sg xs v := b1
    have c2 : _ = if postVar (E.K.kernel t.kf.inner) (t.kf.noise + 1e-8) xs' v ≤ dblEps then 0
      else postVar (E.K.kernel t.kf.inner) (t.kf.noise + 1e-8) xs' v := b2
    rw [a2, c1, c2, hk, postVar_perm _ _ v σ fun i => (hσ i).1]
  · obtain ⟨v1, a1, b1⟩ := logLik_spec hE T1 ⟨hd.nonempty, rfl, rfl, rfl⟩ hd
    obtain ⟨v2, a2, b2⟩ := logLik_spec hE T2 ⟨hd'.nonempty, rfl, rfl, rfl⟩ hd'
    refine ⟨v1, by rw [a1]; rfl, ?_⟩
    have c1 : v1 = ∑ c ∈ range dout, logMarginal k (meanFn s.mf ys dout) sg xs ys c
        + (dout - 1 : ℝ) * (1 / 2 * Real.log (gramM k sg xs).det + xs.length / 2 * Real.log (2 * Real.pi)) := b1
    have c2 : v2 = ∑ c ∈ range dout, logMarginal (E.K.kernel t.kf.inner) (meanFn t.mf ys' dout) (t.kf.noise + 1e-8) xs' ys' c
        + (dout - 1 : ℝ) * (1 / 2 * Real.log (gramM (E.K.kernel t.kf.inner) (t.kf.noise + 1e-8) xs').det
          + xs'.length / 2 * Real.log (2 * Real.pi)) := b2
    rw [a2, Option.map_some, c1, c2, hk, hm, hmean, det_perm _ _ σ fun i => (hσ i).1, hlen,
      sum_congr rfl fun c _ => logMarginal_perm _ _ _ c σ hσ]

example : ([[0, 1], [2, 3]].zip [[1], [5]] : List (List ℝ × List ℝ)).Perm ([[2, 3], [0, 1]].zip [[5], [1]]) := List.Perm.swap _ _ _

/-! ## C32 -/

/-- **C32**: whenever the bookkeeping allows it, a cached inverse is the inverse of the covariance matrix of the current data. -/
theorem C32_cached_inverse (hE : LawfulEnv E) (hr : GpReach E A st) (hne : A.xs ≠ []) (hi : A.i = true) (hu : st.invUpdated = true) :
    st.invKernel.rows = A.xs.length ∧ st.invKernel.cols = A.xs.length ∧
    (Matrix.of fun i j : Fin A.xs.length => st.invKernel.e i j) = (gramM st.kf.op (st.kf.noise + 1e-8) A.xs)⁻¹ ∧
    gramM st.kf.op (st.kf.noise + 1e-8) A.xs * (Matrix.of fun i j : Fin A.xs.length => st.invKernel.e i j) = 1 := by
  have T := hr.tracks hE
  have h := T.iok hne hi hu
  obtain ⟨din, dout, hh⟩ := T.ne hne
  have hpd := gram_pd (T.kokd hE hh) (xs := A.xs) hh.data.inputs
  have e : (Matrix.of fun i j : Fin A.xs.length => st.invKernel.e i j) = (gramM st.kf.op (st.kf.noise + 1e-8) A.xs)⁻¹ := by
    rw [op_fun, gramM_eq]
    ext i j
    have hsol := h.sol j j.2
    rw [T.samples] at hsol
    rw [hpd.inv_entry j hsol i]; rfl
  refine ⟨h.rows, h.cols, e, ?_⟩
  rw [e, op_fun, gramM_eq, hpd.mul_inv]

/-- The calls for which limbo keeps its cache right whatever their order: everything except changing kernel parameters without
recomputing, skipping the kernel in `compute`, and loading without recomputing. -/
def CacheSafe : Op → Prop
  | .compute _ _ ck => ck = true
  | .setKernelParams _ => False
  | .load _ r => r = true
  | _ => True

theorem cacheSafe_step {B : GpAbs} {op : Op} (h : CacheSafe op) (hi : B.i = true) (hk : B.k = true) :
    (B.step op).i = true ∧ (B.step op).k = true := by
  cases op with
  | compute xs ys ck => cases h; exact ⟨rfl, rfl⟩
  | add x y => exact ⟨rfl, hk⟩
  | recompute um uk => simp [GpAbs.step, hi, hk]
  | setKernelParams p => exact h.elim
  | setMeanParams p => exact ⟨hi, hk⟩
  | computeInvKernel => exact ⟨hk, hk⟩
  | computeLogLik => exact ⟨hi, hk⟩
  | kernelGradLogLik => simp [GpAbs.step, hi, hk]
  | meanGradLogLik => simp [GpAbs.step, hi, hk]
  | computeLogLoo => simp [GpAbs.step, hi, hk]
  | kernelGradLogLoo => simp [GpAbs.step, hi, hk]
  | load a r => cases h; exact ⟨rfl, rfl⟩

/-- **C32**: along every history of such calls, a cached inverse is never stale. -/
theorem C32_never_stale (hE : LawfulEnv E) (u : ℝ × ℝ) (ops : List (Op × (Nat → Nat → ℝ))) (hs : ∀ o ∈ ops, o.1.Sane)
    (hsafe : ∀ o ∈ ops, CacheSafe o.1) (h : run (Gp.new E u) ops = some st) (hne : samplesOf st ≠ []) (hu : st.invUpdated = true) :
    gramM st.kf.op (st.kf.noise + 1e-8) (samplesOf st) * (Matrix.of fun i j : Fin (samplesOf st).length => st.invKernel.e i j) = 1 := by
  have hr : GpReach E (GpAbs.init.run ops) st := ⟨u, ops, _, Or.inl rfl, hs, h, rfl⟩
  have key : ∀ (l : List (Op × (Nat → Nat → ℝ))) (B : GpAbs), (∀ o ∈ l, CacheSafe o.1) → B.i = true → B.k = true →
      (B.run l).i = true ∧ (B.run l).k = true := by
    intro l
    induction l with
    | nil => intro B _ hi hk; exact ⟨hi, hk⟩
    | cons o l ih =>
      intro B hl hi hk
      refine ih (B.step o.1) (fun o ho => hl o (List.mem_cons_of_mem _ ho)) ?_ ?_
      · have hsafe := hl o List.mem_cons_self
        exact (cacheSafe_step hsafe hi hk).1
      · have hsafe := hl o List.mem_cons_self
        exact (cacheSafe_step hsafe hi hk).2
  have hx : samplesOf st = (GpAbs.init.run ops).xs := (C65_data hE hr).1
  rw [hx] at hne ⊢
  exact (C32_cached_inverse hE hr hne (key ops .init hsafe rfl rfl).1 hu).2.2.2

/-- **C32**: after `recompute` with the full kernel, whatever was changed before, the next cached inverse is right. -/
theorem C32_recompute_restores (hE : LawfulEnv E) (hr : GpReach E A st) (um : Bool) (junk : Nat → Nat → ℝ)
    (h1 : recompute junk st um true = some s) (h2 : computeInvKernel s = some t) :
    gramM t.kf.op (t.kf.noise + 1e-8) A.xs * (Matrix.of fun i j : Fin A.xs.length => t.invKernel.e i j) = 1 := by
  have r1 := hr.step (op := .recompute um true) (junk := junk) trivial h1
  have r2 := r1.step (op := .computeInvKernel) (junk := junk) trivial h2
  have hne : A.xs ≠ [] := by
    intro e
    unfold recompute at h1
    rw [if_pos (by rw [(hr.tracks hE).samples, e])] at h1
    cases h1
  have hu : t.invUpdated = true := by rw [(track_inv (r1.tracks hE) h2).2]
  exact (C32_cached_inverse hE r2 hne (by simp [GpAbs.step]) hu).2.2.2

/-! ## C33 -/

/-- **C33** for one output: `compute_log_lik()` is the Gaussian log marginal likelihood. -/
theorem C33_log_likelihood (hE : LawfulEnv E) (hr : GpReach E A st) (hA : A.UpToDate) (hd : DataSet A.xs A.ys din 1) :
    (computeLogLik st).map (·.2) = some (logMarginal st.kf.op (meanFn st.mf A.ys 1) (st.kf.noise + 1e-8) A.xs A.ys 0) := by
  obtain ⟨v, h1, h2⟩ := logLik_spec hE (hr.tracks hE) hA hd
  rw [h1, op_fun, Option.map_some, h2]
  simp

/-- **C33** for several outputs: the determinant and constant terms are counted once, so the value exceeds the sum of the outputs'
log-likelihoods by `dout - 1` times these terms. -/
theorem C33_log_likelihood_outputs (hE : LawfulEnv E) (hr : GpReach E A st) (hA : A.UpToDate) (hd : DataSet A.xs A.ys din dout) :
    (computeLogLik st).map (·.2) = some (∑ c ∈ range dout, logMarginal st.kf.op (meanFn st.mf A.ys dout) (st.kf.noise + 1e-8) A.xs A.ys c
      + (dout - 1 : ℝ) * (1 / 2 * Real.log (gramM st.kf.op (st.kf.noise + 1e-8) A.xs).det + A.xs.length / 2 * Real.log (2 * Real.pi))) := by
  obtain ⟨v, h1, h2⟩ := logLik_spec hE (hr.tracks hE) hA hd
  rw [h1, op_fun, Option.map_some, h2]

/-! ## C41 -/

/-- **C41**: whatever was changed before, `recompute()` makes the GP equal to one computed from scratch on its data with its current
hyper-parameters, which it keeps. -/
theorem C41_recompute_is_fresh_fit (hE : LawfulEnv E) (hr : GpReach E A st) (hd : DataSet A.xs A.ys din dout) (junk junk' : Nat → Nat → ℝ) :
    ∃ s t, recompute junk st true true = some s ∧ compute junk' st A.xs A.ys true = some t ∧ SameFit s t A.xs.length dout ∧
      s.kf = st.kf ∧ s.mf = st.mf ∧ t.kf = st.kf ∧ t.mf = st.mf := by
  have T := hr.tracks hE
  have hh := T.hasData hd
  obtain ⟨s, h1⟩ := recompute_progress hE junk T (um := true) (uk := true) ⟨hd.nonempty, Or.inl rfl, Or.inl rfl⟩
  obtain ⟨T1, hk1, hm1, -, -⟩ := track_recompute hE junk T h1
  obtain ⟨t, h2, T2, hk2, hm2, -, -⟩ := track_compute hE junk' T hd true
  rw [if_pos hh.dimIn] at hk2
  rw [if_pos hh.dimOut] at hm2
  refine ⟨s, t, h1, h2, ?_, hk1, hm1, hk2, hm2⟩
  have hA : (A.step (.recompute true true)).UpToDate := ⟨hd.nonempty, by simp [GpAbs.step], by simp [GpAbs.step], by simp [GpAbs.step]⟩
  exact sameFit_of_tracks hE T1 T2 rfl rfl hA ⟨hd.nonempty, rfl, rfl, rfl⟩ hd (by rw [hk1, hk2])
    (fun _ _ _ _ => by rw [hm1, hm2])

/-- **C41**: on an up-to-date GP every form of `recompute` changes nothing. -/
theorem C41_recompute_idempotent (hE : LawfulEnv E) (hr : GpReach E A st) (hA : A.UpToDate) (hd : DataSet A.xs A.ys din dout)
    (um uk : Bool) (junk : Nat → Nat → ℝ) : ∃ s, recompute junk st um uk = some s ∧ SameFit s st A.xs.length dout := by
  have T := hr.tracks hE
  obtain ⟨hne, hk, hm, ha⟩ := hA
  obtain ⟨s, h1⟩ := recompute_progress hE junk T (um := um) (uk := uk) ⟨hd.nonempty, Or.inr hm, Or.inr hk⟩
  obtain ⟨T1, hk1, hm1, -, -⟩ := track_recompute hE junk T h1
  refine ⟨s, h1, ?_⟩
  have hA' : (A.step (.recompute um uk)).UpToDate := ⟨hd.nonempty, by simp [GpAbs.step, hk], by simp [GpAbs.step, hm], by simp [GpAbs.step, hk, hm]⟩
  exact sameFit_of_tracks hE T1 T rfl rfl hA' ⟨hne, hk, hm, ha⟩ hd hk1 (fun _ _ _ _ => by rw [hm1])

/-- **C41**: changing the kernel parameters and calling `recompute(false)`, or the mean parameters and calling `recompute(true, false)`,
is enough: the result equals a full recomputation. -/
theorem C41_partial_recompute_suffices (hE : LawfulEnv E) (hr : GpReach E A st) (hA : A.UpToDate) (hd : DataSet A.xs A.ys din dout)
    (p : List ℝ) (junk junk' : Nat → Nat → ℝ) :
    (st.kf.hParamsSize E.KP ≤ p.length →
      ∃ s t, recompute junk (setKernelParams st p) false true = some s ∧ recompute junk' (setKernelParams st p) true true = some t ∧
        SameFit s t A.xs.length dout) ∧
    (E.M.hSize st.mf ≤ p.length →
      ∃ s t, recompute junk (setMeanParams st p) true false = some s ∧ recompute junk' (setMeanParams st p) true true = some t ∧
        SameFit s t A.xs.length dout) := by
  have T := hr.tracks hE
  obtain ⟨hne, hk, hm, ha⟩ := hA
  refine ⟨fun hp => ?_, fun hp => ?_⟩
  · have T0 := track_setK T p hp
    obtain ⟨s, h1⟩ := recompute_progress hE junk T0 (um := false) (uk := true) ⟨hne, Or.inr hm, Or.inl rfl⟩
    obtain ⟨t, h2⟩ := recompute_progress hE junk' T0 (um := true) (uk := true) ⟨hne, Or.inl rfl, Or.inl rfl⟩
    obtain ⟨T1, hk1, hm1, -, -⟩ := track_recompute hE junk T0 h1
    obtain ⟨T2, hk2, hm2, -, -⟩ := track_recompute hE junk' T0 h2
    refine ⟨s, t, h1, h2, sameFit_of_tracks hE T1 T2 rfl rfl ?_ ?_ hd (by rw [hk1, hk2]) (fun _ _ _ _ => by rw [hm1, hm2])⟩
    · exact ⟨hne, by simp [GpAbs.step], by simp [GpAbs.step, hm], by simp [GpAbs.step, hm]⟩
    · exact ⟨hne, by simp [GpAbs.step], by simp [GpAbs.step], by simp [GpAbs.step]⟩
  · have T0 := track_setM T p hp
    obtain ⟨s, h1⟩ := recompute_progress hE junk T0 (um := true) (uk := false) ⟨hne, Or.inl rfl, Or.inr hk⟩
    obtain ⟨t, h2⟩ := recompute_progress hE junk' T0 (um := true) (uk := true) ⟨hne, Or.inl rfl, Or.inl rfl⟩
    obtain ⟨T1, hk1, hm1, -, -⟩ := track_recompute hE junk T0 h1
    obtain ⟨T2, hk2, hm2, -, -⟩ := track_recompute hE junk' T0 h2
    refine ⟨s, t, h1, h2, sameFit_of_tracks hE T1 T2 rfl rfl ?_ ?_ hd (by rw [hk1, hk2]) (fun _ _ _ _ => by rw [hm1, hm2])⟩
    · exact ⟨hne, by simp [GpAbs.step, hk], by simp [GpAbs.step], by simp [GpAbs.step, hk]⟩
    · exact ⟨hne, by simp [GpAbs.step], by simp [GpAbs.step], by simp [GpAbs.step]⟩

/-! ## C43 -/

/-- **C43**: fitting never fails, and the factor it computes is lower triangular with positive diagonal and product the covariance
matrix; so no square root of a negative number and no division by zero occurs. -/
theorem C43_fit_never_fails (hE : LawfulEnv E) (hr : GpReach E A st) (xs ys : List (List ℝ)) (hd : DataSet xs ys din dout)
    (junk : Nat → Nat → ℝ) :
    ∃ s, compute junk st xs ys true = some s ∧ (∀ i < xs.length, 0 < s.L.e i i) ∧ (∀ i < xs.length, ∀ j < xs.length, i < j → s.L.e i j = 0) ∧
      (Matrix.of fun i j : Fin xs.length => s.L.e i j) * (Matrix.of fun i j : Fin xs.length => s.L.e i j).transpose
        = gramM s.kf.op (s.kf.noise + 1e-8) xs := by
  obtain ⟨s, h1, T1, -⟩ := track_compute hE junk (hr.tracks hE) hd true
  have h := (T1.kok rfl).chol
  refine ⟨s, h1, h.diag, h.lower, ?_⟩
  rw [op_fun, gramM_eq]
  ext i j
  have := h.prod i i.2 j j.2
  rw [Matrix.mul_apply]
  simp only [Matrix.of_apply, Matrix.transpose_apply, toM]
  rw [show (A.step (.compute xs ys true)).xs.length = xs.length from rfl, Finset.sum_range, T1.samples] at this
  exact this

/-- **C43** for incremental updates: the pivot of every `add_sample` is positive too. -/
theorem C43_add_sample_never_fails (hE : LawfulEnv E) (hr : GpReach E A st) (hk : A.k = true) (x y : List ℝ)
    (hd : DataSet (A.xs ++ [x]) (A.ys ++ [y]) din dout) (junk : Nat → Nat → ℝ) :
    ∃ s, addSample junk st x y = some s ∧ (∀ i < A.xs.length + 1, 0 < s.L.e i i) ∧
      (Matrix.of fun i j : Fin (A.xs ++ [x]).length => s.L.e i j) * (Matrix.of fun i j : Fin (A.xs ++ [x]).length => s.L.e i j).transpose
        = gramM s.kf.op (s.kf.noise + 1e-8) (A.xs ++ [x]) := by
  obtain ⟨s, h1, T1, -⟩ := track_add hE junk (hr.tracks hE) hd
  have h := (T1.kok hk).chol
  have hlen : (A.step (.add x y)).xs.length = A.xs.length + 1 := by simp [GpAbs.step]
  refine ⟨s, h1, fun i hi => h.diag i (by omega), ?_⟩
  rw [op_fun, gramM_eq]
  ext i j
  have := h.prod i i.2 j j.2
  rw [Matrix.mul_apply]
  simp only [Matrix.of_apply, Matrix.transpose_apply, toM]
  rw [show (A.step (.add x y)).xs.length = (A.xs ++ [x]).length from rfl, Finset.sum_range, T1.samples] at this
  exact this

end Limbo
