import Verif.Props.GpSave
import Verif.Props.Archive
import Verif.Spec.GpFiles

/-! Saving a GP to files and loading it again. -/

namespace Limbo

open Finset Gp Matrix

variable {E : GpEnv} {A B : GpAbs} {st s t : GpState E} {din dout : Nat}

theorem colMean_same {m m' : Mat} (h : m.Same m') : colMean m = colMean m' := by
  funext c
  unfold colMean
  rw [← h.rows, ← h.cols]
  by_cases hc : c < m.cols
  · rw [if_pos hc, if_pos hc]
    congr 1
    exact sum_congr rfl fun i hi => h.e i (mem_range.1 hi) c hc
  · rw [if_neg hc, if_neg hc]

theorem rowsOf_same {m m' : Mat} (h : m.Same m') : rowsOf m = rowsOf m' := by
  unfold rowsOf
  rw [← h.rows, ← h.cols]
  refine List.map_congr_left fun i hi => List.map_congr_left fun j hj => ?_
  exact h.e i (List.mem_range.1 hi) j (List.mem_range.1 hj)

/-- loading objects equal to those saved -/
theorem load_like (hE : LawfulEnv E) (hI : StdKernel E.K) (hM : StdMean E.M) (hn : E.KP.optimizeNoise = true → 0 < E.KP.noise)
    (T : Tracks E A s) (hA : A.UpToDate) (hd : DataSet A.xs A.ys din dout) (t : GpState E) (recomp : Bool) (junk : Nat → Nat → ℝ)
    (a : Saved) (hak : a.kernelParams = (save s).kernelParams) (ham : a.meanParams = (save s).meanParams) (hsv : a.samples = s.samples)
    (hob : a.observations.Same s.obs) (hL : a.matrixL.Same s.L) (hal : a.alpha.Same s.alpha) :
    ∃ t', load junk t a recomp = some t' ∧ samplesOf t' = A.xs ∧ observationsOf t' = A.ys ∧
      t'.kf.hParams E.KP = s.kf.hParams E.KP ∧ E.M.hParams t'.mf = E.M.hParams s.mf ∧
      (∀ v, ∃ m m', mu s v = some m ∧ mu t' v = some m' ∧ ∀ c < dout, m c = m' c) ∧
      (∀ v, ∃ σ, sigma s v = some σ ∧ sigma t' v = some σ) ∧
      (recomp = true → SameFit s t' A.xs.length dout) := by
  have hh := T.hasData hd
  obtain ⟨hne, hk, hm, ha⟩ := hA
  obtain ⟨mf, hmr, hmop, hmh, hload⟩ := load_saved hI hM hn T hd t recomp junk a hak ham hsv hob.cols
  have hrows : rowsOf a.observations = A.ys := by rw [rowsOf_same hob]; exact save_rows hh
  have hsx : a.samples = A.xs := hsv.trans T.samples
  have hds : DataSet a.samples (rowsOf a.observations) din dout := by rw [hrows, hsx]; exact hd
  have hld : HasData (loaded t a s.kf mf) A.xs A.ys din dout := by
    have := loaded_hasData (st := t) (kf := s.kf) (mf := mf) hds
    rw [hrows, hsx] at this; exact this
  have hkr : (loaded t a s.kf mf).dimIn = -1 ∨ KReach E.K E.KP (loaded t a s.kf mf).dimIn.toNat s.kf := by
    rw [hld.dimIn]; exact Or.inr (T.kreach hh)
  have hmr' : (loaded t a s.kf mf).dimOut = -1 ∨ MReach E.M (loaded t a s.kf mf).dimOut.toNat mf := by
    rw [hld.dimOut]; exact Or.inr hmr
  cases recomp with
  | true =>
    simp only [if_true] at hload
    have T0 : Tracks E ⟨A.xs, A.ys, false, false, false, false⟩ (loaded t a s.kf mf) := by
      refine ⟨hsx, fun e => absurd e hne, fun _ => ⟨din, dout, hld⟩, ⟨hkr, hmr'⟩, ?_, ?_, ?_, ?_⟩
      · intro _ h; cases h
      · intro h; cases h
      · intro _ h; cases h
      · intro _ h; cases h
    obtain ⟨t', h1⟩ := recompute_progress hE junk T0 (um := true) (uk := true) ⟨hne, Or.inl rfl, Or.inl rfl⟩
    obtain ⟨T1, hk1, hm1, -, -⟩ := track_recompute hE junk T0 h1
    have hsf : SameFit s t' A.xs.length dout :=
      sameFit_of_tracks hE T T1 rfl rfl ⟨hne, hk, hm, ha⟩ ⟨hne, rfl, rfl, rfl⟩ hd (by rw [hk1]; rfl)
        (fun v mo c hc => by rw [hm1]; exact (hmop v mo c hc).symm)
    refine ⟨t', by rw [hload, h1], T1.samples, ?_, ?_, ?_, hsf.mu, hsf.sigma, fun _ => hsf⟩
    · exact observations_eq (T1.hasData (A := ⟨A.xs, A.ys, _, _, _, _⟩) hd)
    · rw [hk1]; rfl
    · rw [hm1]; exact hmh
  | false =>
    simp only [Bool.false_eq_true, if_false] at hload
    set t1 : GpState E := { loaded t a s.kf mf with L := a.matrixL, alpha := a.alpha } with ht1
    have hl1 : HasData t1 A.xs A.ys din dout := ⟨hld.data, hld.dimIn, hld.dimOut, hld.samples, hld.obsRows, hld.obsCols, hld.obsE, hld.meanObs⟩
    have hsam : t1.samples = s.samples := hsv
    have hmo : meanObservation t1 = meanObservation s := by
      unfold meanObservation
      rw [hsam, show t1.meanObs = s.meanObs from (colMean_same hob).trans hh.meanObs.symm]
    have hma : ∀ v, ∀ c < dout, meanAt t1 v c = meanAt s v c := by
      intro v c hc
      unfold meanAt
      rw [hmo]
      exact hmop v _ c hc
    have hKs := T.kok hk
    have hAs := T.aok hne ha
    have hdo : s.dimOut.toNat = dout := by rw [hh.dimOut]; rfl
    rw [hdo] at hAs
    have T1 : Tracks E ⟨A.xs, A.ys, true, false, true, false⟩ t1 := by
      refine ⟨hsx, fun e => absurd e hne, fun _ => ⟨din, dout, hl1⟩, ⟨hkr, hmr'⟩, ?_, ?_, ?_, ?_⟩
      · intro _ h; cases h
      · intro _
        refine ⟨hL.rows.trans hKs.rows, hL.cols.trans hKs.cols, ?_⟩
        have hc := hKs.chol
        have he : ∀ i < A.xs.length, ∀ j < A.xs.length, t1.L.e i j = s.L.e i j := by
          intro i hi j hj
          exact hL.e i (by rw [hL.rows, hKs.rows]; exact hi) j (by rw [hL.cols, hKs.cols]; exact hj)
        refine ⟨fun i hi => by rw [he i hi i hi]; exact hc.diag i hi, fun i hi j hj h => by rw [he i hi j hj]; exact hc.lower i hi j hj h, ?_⟩
        intro i hi j hj
        rw [hsam]
        refine Eq.trans ?_ (hc.prod i hi j hj)
        exact sum_congr rfl fun k hk' => by rw [he i hi k (mem_range.1 hk'), he j hj k (mem_range.1 hk')]
      · intro _ _
        have hdo1 : t1.dimOut.toNat = dout := by rw [hl1.dimOut]; rfl
        rw [hdo1]
        refine ⟨hal.rows.trans hAs.rows, hal.cols.trans hAs.cols, ?_⟩
        intro c hc i hi
        have hsol := hAs.sol c hc i hi
        rw [hsam]
        show _ = t1.obs.e i c - meanAt t1 (s.samples.getD i []) c
        rw [hma _ c hc]
        have ho : t1.obs.e i c = s.obs.e i c := hob.e i (by rw [hob.rows, hh.obsRows]; exact hi) c (by rw [hob.cols, hh.obsCols]; exact hc)
        rw [ho]
        refine Eq.trans ?_ hsol
        refine sum_congr rfl fun j hj => ?_
        have : t1.alpha.e j c = s.alpha.e j c :=
          hal.e j (by rw [hal.rows, hAs.rows]; exact mem_range.1 hj) c (by rw [hal.cols, hAs.cols]; exact hc)
        show gramN t1.kf s.samples i j * t1.alpha.e j c = gramN s.kf s.samples i j * s.alpha.e j c
        rw [this]
        rfl
      · intro _ h; cases h
    refine ⟨t1, hload, hsx, observations_eq hl1, rfl, hmh, ?_, ?_, fun h => by cases h⟩
    · intro v
      obtain ⟨a1, a2⟩ := mu_spec hE T hne ha hd v
      obtain ⟨b1, b2⟩ := mu_spec hE T1 hne rfl hd v
      refine ⟨_, _, a1, b1, fun c hc => ?_⟩
      rw [a2 c hc, b2 c hc]
      have hmm : ∀ x, meanFn s.mf A.ys dout x c = meanFn mf A.ys dout x c := fun x => (hmop x _ c hc).symm
      have hrr : resid (meanFn s.mf A.ys dout) A.xs A.ys c = resid (meanFn mf A.ys dout) A.xs A.ys c := by
        funext i
        unfold resid
        rw [hmm]
      unfold postMean
      rw [hmm v, hrr]
      rfl
    · intro v
      obtain ⟨a1, a2⟩ := sigma_spec hE T hne hk v
      obtain ⟨b1, b2⟩ := sigma_spec hE T1 hne rfl v
      refine ⟨_, a1, ?_⟩
      rw [b1, b2, a2]
      rfl

variable {χ M V : Type}

/-- what the stored objects mean -/
def GpObjects.read (R : Reading M V) (o : GpObjects M V) : Gp.Saved :=
  ⟨o.kernelParams.map R.vec, o.meanParams.map R.vec, o.samples.map R.row, R.mat o.observations, R.mat o.matrixL, R.mat o.alpha⟩

theorem loadFrom_eq (Ar : ArchiveClass χ M V) (R : Reading M V) (fs : Fs χ) (dir : String) (junk : Nat → Nat → ℝ) (t : GpState E) (recomp : Bool)
    (o : GpObjects M V) (h1 : Ar.loadList fs dir "samples" = some o.samples) (h2 : Ar.loadMat fs dir "observations" = some o.observations)
    (h3 : Ar.loadMat fs dir "matrixL" = some o.matrixL) (h4 : Ar.loadMat fs dir "alpha" = some o.alpha)
    (hk : ∀ p, o.kernelParams = some p → Ar.loadVec fs dir "kernel_params" = some p)
    (hm : ∀ p, o.meanParams = some p → Ar.loadVec fs dir "mean_params" = some p)
    (hkn : o.kernelParams = none → ¬ (BaseK.mk' E.KP ((o.samples.map R.row).headD []).length : BaseK E.K).hParamsSize E.KP > 0)
    (hmn : o.meanParams = none → ¬ E.M.hSize (E.M.new (R.mat o.observations).cols) > 0) :
    loadFrom Ar R fs dir junk t recomp = load junk t (o.read R) recomp := by
  obtain ⟨kp, mp, xs, ys, L, al⟩ := o
  unfold loadFrom load GpObjects.read
  simp only at h1 h2 h3 h4 hk hm hkn hmn ⊢
  rw [h1, Option.bind_some, h2, Option.bind_some]
  by_cases hx : xs.map R.row = []
  · rw [if_pos hx, if_pos hx]
  · rw [if_neg hx, if_neg hx]
    have ek : (if (BaseK.mk' E.KP ((xs.map R.row).headD []).length : BaseK E.K).hParamsSize E.KP > 0 then
        (Ar.loadVec fs dir "kernel_params").bind fun p =>
          if (R.vec p).length = (BaseK.mk' E.KP ((xs.map R.row).headD []).length : BaseK E.K).hParamsSize E.KP then
            some ((BaseK.mk' E.KP ((xs.map R.row).headD []).length : BaseK E.K).setHParams E.KP (R.vec p)) else none
        else some (BaseK.mk' E.KP ((xs.map R.row).headD []).length)) =
      (if (BaseK.mk' E.KP ((xs.map R.row).headD []).length : BaseK E.K).hParamsSize E.KP > 0 then
        (kp.map R.vec).bind fun p =>
          if p.length = (BaseK.mk' E.KP ((xs.map R.row).headD []).length : BaseK E.K).hParamsSize E.KP then
            some ((BaseK.mk' E.KP ((xs.map R.row).headD []).length : BaseK E.K).setHParams E.KP p) else none
        else some (BaseK.mk' E.KP ((xs.map R.row).headD []).length)) := by
      cases kp with
      | none => rw [if_neg (hkn rfl), if_neg (hkn rfl)]
      | some p => rw [hk p rfl]; rfl
    have em : (if E.M.hSize (E.M.new (R.mat ys).cols) > 0 then
        (Ar.loadVec fs dir "mean_params").bind fun p =>
          if (R.vec p).length = E.M.hSize (E.M.new (R.mat ys).cols) then some (E.M.setH (E.M.new (R.mat ys).cols) (R.vec p)) else none
        else some (E.M.new (R.mat ys).cols)) =
      (if E.M.hSize (E.M.new (R.mat ys).cols) > 0 then
        (mp.map R.vec).bind fun p =>
          if p.length = E.M.hSize (E.M.new (R.mat ys).cols) then some (E.M.setH (E.M.new (R.mat ys).cols) p) else none
        else some (E.M.new (R.mat ys).cols)) := by
      cases mp with
      | none => rw [if_neg (hmn rfl), if_neg (hmn rfl)]
      | some p => rw [hm p rfl]; rfl
    rw [ek, em, h3, h4]
    rfl

/-- loading from an archive that returns objects with the numbers that were saved is loading these objects -/
theorem loadFrom_stored (hI : StdKernel E.K) (hM : StdMean E.M) (T : Tracks E A s) (hd : DataSet A.xs A.ys din dout)
    (Ar : ArchiveClass χ M V) (R : Reading M V) (fs : Fs χ)
    (dir : String) (t : GpState E) (recomp : Bool) (junk : Nat → Nat → ℝ) (o : GpObjects M V) (hs : Stores R o s)
    (h1 : Ar.loadList fs dir "samples" = some o.samples) (h2 : Ar.loadMat fs dir "observations" = some o.observations)
    (h3 : Ar.loadMat fs dir "matrixL" = some o.matrixL) (h4 : Ar.loadMat fs dir "alpha" = some o.alpha)
    (hk : ∀ p, o.kernelParams = some p → Ar.loadVec fs dir "kernel_params" = some p)
    (hm : ∀ p, o.meanParams = some p → Ar.loadVec fs dir "mean_params" = some p) :
    loadFrom Ar R fs dir junk t recomp = load junk t (o.read R) recomp := by
  have hh := T.hasData hd
  have hksz := (kernel_size hI (T.kreach hh)).2
  rw [loadFrom_eq Ar R fs dir junk t recomp o h1 h2 h3 h4 hk hm]
  · intro h
    have := hs.kernelParams
    rw [h] at this
    unfold save at this
    simp only at this
    rw [if_pos hksz] at this
    cases this
  · intro h h0
    have := hs.meanParams
    rw [h] at this
    unfold save at this
    simp only at this
    rw [if_pos] at this
    · cases this
    · rw [hs.observations.cols, hh.obsCols] at h0
      rw [(std_mean_ok hM).size_eq (T.mreach hh)]
      exact h0

/-- loading from an archive that returns objects with the numbers that were saved -/
theorem loadFrom_like (hE : LawfulEnv E) (hI : StdKernel E.K) (hM : StdMean E.M) (hn : E.KP.optimizeNoise = true → 0 < E.KP.noise)
    (T : Tracks E A s) (hA : A.UpToDate) (hd : DataSet A.xs A.ys din dout) (Ar : ArchiveClass χ M V) (R : Reading M V) (fs : Fs χ)
    (dir : String) (t : GpState E) (recomp : Bool) (junk : Nat → Nat → ℝ) (o : GpObjects M V) (hs : Stores R o s)
    (h1 : Ar.loadList fs dir "samples" = some o.samples) (h2 : Ar.loadMat fs dir "observations" = some o.observations)
    (h3 : Ar.loadMat fs dir "matrixL" = some o.matrixL) (h4 : Ar.loadMat fs dir "alpha" = some o.alpha)
    (hk : ∀ p, o.kernelParams = some p → Ar.loadVec fs dir "kernel_params" = some p)
    (hm : ∀ p, o.meanParams = some p → Ar.loadVec fs dir "mean_params" = some p) :
    ∃ t', loadFrom Ar R fs dir junk t recomp = some t' ∧ samplesOf t' = A.xs ∧ observationsOf t' = A.ys ∧
      t'.kf.hParams E.KP = s.kf.hParams E.KP ∧ E.M.hParams t'.mf = E.M.hParams s.mf ∧
      (∀ v, ∃ m m', mu s v = some m ∧ mu t' v = some m' ∧ ∀ c < dout, m c = m' c) ∧
      (∀ v, ∃ σ, sigma s v = some σ ∧ sigma t' v = some σ) ∧
      (recomp = true → SameFit s t' A.xs.length dout) := by
  rw [loadFrom_stored hI hM T hd Ar R fs dir t recomp junk o hs h1 h2 h3 h4 hk hm]
  exact load_like hE hI hM hn T hA hd t recomp junk _ hs.kernelParams hs.meanParams hs.samples hs.observations hs.matrixL hs.alpha

end Limbo
