import Verif.Lemmas.GpCore

set_option linter.unusedSectionVars false

namespace Limbo

open Finset

namespace Gp

variable {E : GpEnv}

theorem meanObs_form (junk : Nat → Nat → ℝ) {st : GpState E} {xs ys : List (List ℝ)} {din dout : Nat} (h : HasData st xs ys din dout) :
    ∃ mv om, computeObsMean junk st = some { st with meanVector := mv, obsMean := om } ∧
      MeanSync { st with meanVector := mv, obsMean := om } xs.length dout := by
  obtain ⟨st', h1, _, h3, h4⟩ := computeObsMean_ok junk h
  refine ⟨st'.meanVector, st'.obsMean, ?_, ?_⟩
  · rw [← h4]; exact h1
  · rw [← h4]; exact h3

theorem fullKernel_form (hllt : LltContract E.llt) (junk : Nat → Nat → ℝ) {st : GpState E} {d : Nat} (hk : KOK st.kf d)
    (hx : ∀ x ∈ st.samples, x.length = d) (hom : st.obsMean.rows = st.samples.length) :
    ∃ k l al, computeFullKernel junk st = some { st with kernel := k, L := l, alpha := al, invUpdated := false } ∧
      KernSync { st with kernel := k, L := l, alpha := al, invUpdated := false } st.samples.length ∧
      AlphaSync { st with kernel := k, L := l, alpha := al, invUpdated := false } := by
  obtain ⟨st', h1, h2, h3, _, h5⟩ := computeFullKernel_ok hllt junk hk hx hom
  refine ⟨st'.kernel, st'.L, st'.alpha, ?_, ?_, ?_⟩
  · rw [← h5]; exact h1
  · rw [← h5]; exact h2
  · rw [← h5]; exact h3

theorem incrKernel_form (junk : Nat → Nat → ℝ) {st : GpState E} {d : Nat} (hk : KOK st.kf d) (xs : List (List ℝ)) (x : List ℝ)
    (hs : st.samples = xs ++ [x]) (hx : ∀ x ∈ st.samples, x.length = d) (hom : st.obsMean.rows = st.samples.length)
    (hold : KernSync { st with samples := xs } xs.length) :
    ∃ k l al, computeIncrementalKernel junk st = some { st with kernel := k, L := l, alpha := al, invUpdated := false } ∧
      KernSync { st with kernel := k, L := l, alpha := al, invUpdated := false } st.samples.length ∧
      AlphaSync { st with kernel := k, L := l, alpha := al, invUpdated := false } := by
  obtain ⟨st', h1, h2, h3, _, h5⟩ := computeIncrementalKernel_ok junk hk xs x hs hx hom hold
  refine ⟨st'.kernel, st'.L, st'.alpha, ?_, ?_, ?_⟩
  · rw [← h5]; exact h1
  · rw [← h5]; exact h2
  · rw [← h5]; exact h3

/-- whatever the state, the incremental update only touches these fields -/
theorem incrKernel_shape (junk : Nat → Nat → ℝ) {st st' : GpState E} (h : computeIncrementalKernel junk st = some st') :
    ∃ k l al, st' = { st with kernel := k, L := l, alpha := al, invUpdated := false } := by
  unfold computeIncrementalKernel computeAlpha at h
  simp only at h
  split at h
  · simp only [Option.bind_eq_bind, Option.bind_some, Option.some.injEq] at h
    exact ⟨_, _, _, h.symm⟩
  · simp at h

theorem incrKernel_total (junk : Nat → Nat → ℝ) {st : GpState E} (h : st.obsMean.rows = st.samples.length) :
    ∃ st', computeIncrementalKernel junk st = some st' := by
  unfold computeIncrementalKernel computeAlpha
  simp only
  rw [if_pos]
  · exact ⟨_, rfl⟩
  · have : ∀ m r (F : Nat → Mat → ℝ) (l : Mat), (forN m (fun j (l : Mat) => l.set r j (F j l)) l).rows = l.rows := by
      intro m r F l
      induction m with
      | zero => rfl
      | succ m ih => rw [forN]; exact ih
    rw [h]
    exact this _ _ (fun j l => _) _

theorem alpha_shape {st st' : GpState E} (h : computeAlpha st = some st') :
    ∃ al, st' = { st with alpha := al } ∧ st.L.rows = st.obsMean.rows ∧ AlphaSync { st with alpha := al } := by
  unfold computeAlpha at h
  by_cases hr : st.L.rows = st.obsMean.rows
  · rw [if_pos hr] at h
    cases h
    exact ⟨_, rfl, hr, rfl, rfl, fun _ _ => rfl⟩
  · rw [if_neg hr] at h; cases h

theorem fullKernel_needs (junk : Nat → Nat → ℝ) {st st' : GpState E} (h : computeFullKernel junk st = some st') :
    st.obsMean.rows = st.samples.length ∧ ∃ k l al, st' = { st with kernel := k, L := l, alpha := al, invUpdated := false } := by
  unfold computeFullKernel computeAlpha at h
  simp only at h
  split at h
  · rename_i hh
    simp only [Option.bind_eq_bind, Option.bind_some, Option.some.injEq] at h
    exact ⟨hh.symm, _, _, _, h.symm⟩
  · simp at h

/-- a successful `_compute_obs_mean` passed its assertions -/
theorem obsMean_needs (junk : Nat → Nat → ℝ) {st st' : GpState E} (h : computeObsMean junk st = some st') :
    st.samples ≠ [] ∧ 0 < st.dimOut ∧ (∀ x ∈ st.samples, x.length ≠ 0 ∧ (x.length : Int) = st.dimIn) := by
  unfold computeObsMean at h
  by_cases h1 : st.samples = [] ∨ st.dimOut ≤ 0
  · rw [if_pos h1] at h; cases h
  · rw [if_neg h1] at h
    by_cases h2 : (st.samples.any (fun x => decide (x.length = 0) || decide ((x.length : Int) ≠ st.dimIn))) = true
    · rw [if_pos h2] at h; cases h
    · simp only [not_or, not_le] at h1
      refine ⟨h1.1, h1.2, ?_⟩
      simp only [List.any_eq_true, Bool.or_eq_true, decide_eq_true_eq, not_exists, not_and, not_or, ne_eq, not_not] at h2
      exact h2

/-! ### transfer: the claims depend only on some fields -/

theorem HasData.of_eq {st st' : GpState E} {xs ys : List (List ℝ)} {din dout : Nat} (h : HasData st xs ys din dout)
    (h1 : st'.dimIn = st.dimIn) (h2 : st'.dimOut = st.dimOut) (h3 : st'.samples = st.samples) (h4 : st'.obs = st.obs)
    (h5 : st'.meanObs = st.meanObs) : HasData st' xs ys din dout :=
  ⟨h.data, by rw [h1, h.dimIn], by rw [h2, h.dimOut], by rw [h3, h.samples], by rw [h4, h.obsRows], by rw [h4, h.obsCols],
    by rw [h4]; exact h.obsE, by rw [h5, h4, h.meanObs]⟩

/-! ### the operations keep the bookkeeping -/

theorem compute_dataset (junk : Nat → Nat → ℝ) {st st' : GpState E} {xs ys : List (List ℝ)} {ck : Bool} (h : compute junk st xs ys ck = some st') :
    DataSet xs ys (xs.headD []).length (ys.headD []).length := by
  unfold compute at h
  by_cases hc1 : xs.length = 0 ∨ ys.length = 0 ∨ xs.length ≠ ys.length
  · rw [if_pos hc1] at h; cases h
  · rw [if_neg hc1] at h
    simp only at h
    by_cases hc2 : (ys.any (fun y => decide (y.length ≠ (ys.headD []).length))) = true
    · rw [if_pos hc2] at h; cases h
    · rw [if_neg hc2] at h
      rw [Option.bind_eq_some_iff] at h
      obtain ⟨st1, h1, _⟩ := h
      have := obsMean_needs junk h1
      rw [adaptDims_eq] at this
      simp only [not_or] at hc1
      simp only [List.any_eq_true, decide_eq_true_eq, not_exists, not_and, not_not, ne_eq] at hc2
      refine ⟨this.1, by omega, ?_, hc2, ?_, by have := this.2.1; simpa using this⟩
      · intro x hx
        have : (x.length : Int) = ((xs.headD []).length : Nat) := (this.2.2 x hx).2
        exact_mod_cast this
      · obtain ⟨x, hx⟩ := List.exists_mem_of_ne_nil _ this.1
        have := this.2.2 x hx
        simp only at this
        omega

theorem track_compute (hE : LawfulEnv E) (junk : Nat → Nat → ℝ) {A : GpAbs} {st : GpState E} (T : Tracks E A st) {xs ys : List (List ℝ)}
    {din dout : Nat} (hd : DataSet xs ys din dout) (ck : Bool) :
    ∃ st', compute junk st xs ys ck = some st' ∧ Tracks E (A.step (.compute xs ys ck)) st' ∧
      st'.kf = (if st.dimIn = din then st.kf else BaseK.mk' E.KP din) ∧ st'.mf = (if st.dimOut = dout then st.mf else E.M.new dout) ∧
      st'.dimIn = din ∧ st'.dimOut = dout := by
  obtain ⟨st1, hh, hkf, hmf, hshape, hcomp⟩ := compute_data junk st hd ck
  obtain ⟨mv, om, hom, hms⟩ := meanObs_form junk hh
  rw [hcomp, hom, Option.bind_some]
  have hreach : KReach E.K E.KP din st1.kf := by
    rw [hkf]
    split
    · rename_i hdim
      rcases T.reach.1 with h1 | h1
      · omega
      · rw [hdim] at h1; simpa using h1
    · exact .new
  have hmreach : MReach E.M dout st1.mf := by
    rw [hmf]
    split
    · rename_i hdim
      rcases T.reach.2 with h1 | h1
      · omega
      · rw [hdim] at h1; simpa using h1
    · exact .new
  have hdo : st1.dimOut.toNat = dout := by rw [hh.dimOut]; simp
  have hdi : st1.dimIn.toNat = din := by rw [hh.dimIn]; simp
  have hlen : st1.samples.length = xs.length := by rw [hh.samples]
  cases ck with
  | false =>
    refine ⟨_, rfl, ⟨hh.samples, fun e => absurd e hd.nonempty, fun _ => ⟨din, dout, hh.of_eq rfl rfl rfl rfl rfl⟩, ⟨Or.inr ?_, Or.inr ?_⟩, ?_, ?_, ?_, ?_⟩,
      hkf, hmf, hh.dimIn, hh.dimOut⟩
    · simp only [hdi]; exact hreach
    · simp only [hdo]; exact hmreach
    · intro _ _; simp only [hdo]; exact hms
    · intro h; cases h
    · intro _ h; cases h
    · intro _ h; cases h
  | true =>
    simp only [if_true]
    obtain ⟨k, l, al, h1, h2, h3⟩ := fullKernel_form hE.llt junk (st := { st1 with meanVector := mv, obsMean := om }) (kok_of_reach hE hreach)
      (by rw [show ({ st1 with meanVector := mv, obsMean := om } : GpState E).samples = xs from hh.samples]; exact hd.inputs)
      (by rw [hms.rows]; exact hlen.symm)
    rw [h1]
    have hms' : MeanSync { st1 with meanVector := mv, obsMean := om, kernel := k, L := l, alpha := al, invUpdated := false } xs.length dout :=
      ⟨hms.rows, hms.cols, hms.e, hms.mrows, hms.mcols, hms.me⟩
    have h2' : KernSync { st1 with meanVector := mv, obsMean := om, kernel := k, L := l, alpha := al, invUpdated := false } xs.length := by
      rw [← hlen]; exact h2
    refine ⟨_, rfl, ⟨hh.samples, fun e => absurd e hd.nonempty, fun _ => ⟨din, dout, hh.of_eq rfl rfl rfl rfl rfl⟩, ⟨Or.inr ?_, Or.inr ?_⟩, ?_, ?_, ?_, ?_⟩,
      hkf, hmf, hh.dimIn, hh.dimOut⟩
    · simp only [hdi]; exact hreach
    · simp only [hdo]; exact hmreach
    · intro _ _; simp only [hdo]; exact hms'
    · intro _; exact h2'
    · intro _ _; simp only [hdo]; exact alphaSol_of h2' hms' h3
    · intro _ _ h; cases h

theorem addSample_dataset (junk : Nat → Nat → ℝ) {A : GpAbs} {st st' : GpState E} (T : Tracks E A st) {x y : List ℝ}
    (h : addSample junk st x y = some st') : DataSet (A.xs ++ [x]) (A.ys ++ [y]) x.length y.length := by
  unfold addSample at h
  simp only at h
  by_cases hs : st.samples = []
  · rw [if_pos hs, Option.bind_some, Option.bind_eq_some_iff] at h
    obtain ⟨st1, h1, _⟩ := h
    have := obsMean_needs junk h1
    rw [adaptDims_eq] at this
    simp only [pushSample] at this
    have hA : A.xs = [] := by rw [← T.samples, hs]
    obtain ⟨-, hx, hdo⟩ := this
    have hAy : A.ys = [] := (T.empty hA).2.2
    rw [hA, hAy]
    refine ⟨by simp, by simp, by simp, by simp, ?_, by simpa using hx⟩
    have := hdo x (by simp)
    simp only at this; omega
  · rw [if_neg hs] at h
    by_cases hc : (x.length : Int) = st.dimIn ∧ (y.length : Int) = st.dimOut
    · rw [if_pos hc, Option.bind_some] at h
      have hA : A.xs ≠ [] := by rw [← T.samples]; exact hs
      obtain ⟨din, dout, hh⟩ := T.ne hA
      have e1 : x.length = din := by have := hc.1; rw [hh.dimIn] at this; exact_mod_cast this
      have e2 : y.length = dout := by have := hc.2; rw [hh.dimOut] at this; exact_mod_cast this
      refine ⟨by simp, by simp [hh.data.same], ?_, ?_, by rw [e1]; exact hh.data.din_pos, by rw [e2]; exact hh.data.dout_pos⟩
      · intro z hz
        rcases List.mem_append.1 hz with hz | hz
        · rw [e1]; exact hh.data.inputs z hz
        · rw [List.mem_singleton.1 hz]
      · intro z hz
        rcases List.mem_append.1 hz with hz | hz
        · rw [e2]; exact hh.data.outputs z hz
        · rw [List.mem_singleton.1 hz]
    · rw [if_neg hc] at h; cases h

theorem addSample_data (junk : Nat → Nat → ℝ) {A : GpAbs} {st : GpState E} (T : Tracks E A st) {x y : List ℝ}
    {din dout : Nat} (hd : DataSet (A.xs ++ [x]) (A.ys ++ [y]) din dout) :
    ∃ st1 : GpState E, HasData st1 (A.xs ++ [x]) (A.ys ++ [y]) din dout ∧
      st1.kf = (if st.dimIn = din then st.kf else BaseK.mk' E.KP din) ∧ st1.mf = (if st.dimOut = dout then st.mf else E.M.new dout) ∧
      (A.xs ≠ [] → st1.kf = st.kf) ∧
      st1.L = st.L ∧
      addSample junk st x y = (computeObsMean junk st1).bind fun st => computeIncrementalKernel junk st := by
  have hxl : x.length = din := hd.inputs x (by simp)
  have hyl : y.length = dout := hd.outputs y (by simp)
  have hsame : A.ys.length = A.xs.length := by have := hd.same; simp at this; exact this
  unfold addSample
  simp only
  -- the state after the first part
  by_cases hs : st.samples = []
  · have hA : A.xs = [] := by rw [← T.samples, hs]
    have hAy : A.ys = [] := (T.empty hA).2.2
    have hor := (T.empty hA).1
    rw [if_pos hs, Option.bind_some, adaptDims_eq, hxl, hyl]
    refine ⟨pushSample junk { st with dimIn := din, dimOut := dout, kf := if st.dimIn = din then st.kf else BaseK.mk' E.KP din,
                                      mf := if st.dimOut = dout then st.mf else E.M.new dout } x y, ⟨hd, rfl, rfl, ?_, ?_, ?_, ?_, rfl⟩, rfl, rfl, fun h => absurd hA h, rfl, rfl⟩
    · simp [pushSample, hs, hA]
    · simp [pushSample, Mat.conservativeResize, hor, hA]
    · simp [pushSample, Mat.conservativeResize]
    · intro i hi c _
      rw [hA] at hi
      have hi0 : i = 0 := by simpa using hi
      subst hi0
      simp [pushSample, Mat.conservativeResize, hor, hAy]
  · have hA : A.xs ≠ [] := by rw [← T.samples]; exact hs
    obtain ⟨din', dout', hh⟩ := T.ne hA
    obtain ⟨x0, hx0⟩ := List.exists_mem_of_ne_nil _ hA
    have ed : din' = din := by rw [← hh.data.inputs x0 hx0, ← hd.inputs x0 (by simp [hx0])]
    have hyne : A.ys ≠ [] := by intro e; rw [e] at hsame; exact hA (List.length_eq_zero_iff.1 hsame.symm)
    obtain ⟨y0, hy0⟩ := List.exists_mem_of_ne_nil _ hyne
    have eo : dout' = dout := by rw [← hh.data.outputs y0 hy0, ← hd.outputs y0 (by simp [hy0])]
    subst ed eo
    have hc : (x.length : Int) = st.dimIn ∧ (y.length : Int) = st.dimOut := ⟨by rw [hxl, hh.dimIn], by rw [hyl, hh.dimOut]⟩
    rw [if_neg hs, if_pos hc, Option.bind_some]
    refine ⟨pushSample junk st x y, ⟨hd, hh.dimIn, hh.dimOut, ?_, ?_, ?_, ?_, rfl⟩, ?_, ?_, fun _ => rfl, rfl, rfl⟩
    · simp only [pushSample]; rw [T.samples]
    · simp [pushSample, Mat.conservativeResize, hh.obsRows]
    · simp [pushSample, Mat.conservativeResize, hh.dimOut]
    · intro i hi c hc
      simp only [pushSample, Mat.conservativeResize, hh.obsRows, hh.obsCols, Nat.add_sub_cancel]
      by_cases h : i = A.xs.length
      · subst h
        rw [if_pos rfl, ← hsame, getD_append_right]
      · have hi' : i < A.xs.length := by simp at hi; omega
        rw [if_neg h, if_pos ⟨hi', hc⟩, hh.obsE i hi' c hc, getD_append_left (by omega)]
    · rw [if_pos hh.dimIn]; rfl
    · rw [if_pos hh.dimOut]; rfl

theorem track_add (hE : LawfulEnv E) (junk : Nat → Nat → ℝ) {A : GpAbs} {st : GpState E} (T : Tracks E A st) {x y : List ℝ}
    {din dout : Nat} (hd : DataSet (A.xs ++ [x]) (A.ys ++ [y]) din dout) :
    ∃ st', addSample junk st x y = some st' ∧ Tracks E (A.step (.add x y)) st' ∧
      st'.kf = (if st.dimIn = din then st.kf else BaseK.mk' E.KP din) ∧ st'.mf = (if st.dimOut = dout then st.mf else E.M.new dout) ∧
      st'.dimIn = din ∧ st'.dimOut = dout := by
  obtain ⟨st1, hh, hkf, hmf, hkf', hL, hcomp⟩ := addSample_data junk T hd
  obtain ⟨mv, om, hom, hms⟩ := meanObs_form junk hh
  rw [hcomp, hom, Option.bind_some]
  have hreach : KReach E.K E.KP din st1.kf := by
    rw [hkf]
    split
    · rename_i hdim
      rcases T.reach.1 with h1 | h1
      · omega
      · rw [hdim] at h1; simpa using h1
    · exact .new
  have hmreach : MReach E.M dout st1.mf := by
    rw [hmf]
    split
    · rename_i hdim
      rcases T.reach.2 with h1 | h1
      · omega
      · rw [hdim] at h1; simpa using h1
    · exact .new
  have hdo : st1.dimOut.toNat = dout := by rw [hh.dimOut]; simp
  have hdi : st1.dimIn.toNat = din := by rw [hh.dimIn]; simp
  have hlen : st1.samples.length = (A.xs ++ [x]).length := by rw [hh.samples]
  have hrows : ({ st1 with meanVector := mv, obsMean := om } : GpState E).obsMean.rows
      = ({ st1 with meanVector := mv, obsMean := om } : GpState E).samples.length := by rw [hms.rows]; exact hlen.symm
  -- in every case the call succeeds and touches only the numeric fields
  obtain ⟨st2, hst2⟩ := incrKernel_total junk hrows
  obtain ⟨k, l, al, hshape⟩ := incrKernel_shape junk hst2
  subst hshape
  have hms' : MeanSync { st1 with meanVector := mv, obsMean := om, kernel := k, L := l, alpha := al, invUpdated := false } (A.xs ++ [x]).length dout :=
    ⟨hms.rows, hms.cols, hms.e, hms.mrows, hms.mcols, hms.me⟩
  have hk : A.k = true → KernSync { st1 with meanVector := mv, obsMean := om, kernel := k, L := l, alpha := al, invUpdated := false } (A.xs ++ [x]).length ∧
      AlphaSync { st1 with meanVector := mv, obsMean := om, kernel := k, L := l, alpha := al, invUpdated := false } := by
    intro hAk
    have hold := T.kok hAk
    have hold' : KernSync { st1 with meanVector := mv, obsMean := om, samples := A.xs } A.xs.length := by
      refine ⟨by simp only [hL]; exact hold.rows, by simp only [hL]; exact hold.cols, ?_⟩
      simp only [hL]
      by_cases hA : A.xs = []
      · rw [hA]; exact ⟨by intro i hi; simp at hi, by intro i hi; simp at hi, by intro i hi; simp at hi⟩
      · rw [hkf' hA, ← T.samples]; rw [T.samples]; have := hold.chol; rw [T.samples] at this; exact this
    obtain ⟨k', l', al', h1, h2, h3⟩ := incrKernel_form junk (st := { st1 with meanVector := mv, obsMean := om }) (kok_of_reach hE hreach) A.xs x
      hh.samples (by rw [show ({ st1 with meanVector := mv, obsMean := om } : GpState E).samples = A.xs ++ [x] from hh.samples]; exact hd.inputs)
      hrows hold'
    rw [hst2] at h1
    have h1' := Option.some.inj h1
    rw [h1']
    refine ⟨?_, h3⟩
    rw [← hlen]; exact h2
  refine ⟨_, hst2, ⟨hh.samples, fun e => absurd e (by simp [GpAbs.step]), fun _ => ⟨din, dout, hh.of_eq rfl rfl rfl rfl rfl⟩, ⟨Or.inr ?_, Or.inr ?_⟩, ?_, ?_, ?_, ?_⟩,
      hkf, hmf, hh.dimIn, hh.dimOut⟩
  · simp only [hdi]; exact hreach
  · simp only [hdo]; exact hmreach
  · intro _ _; simp only [hdo]; exact hms'
  · intro h; exact (hk h).1
  · intro _ h; simp only [hdo]; exact alphaSol_of (hk h).1 hms' (hk h).2
  · intro _ _ h; cases h

theorem track_setK {A : GpAbs} {st : GpState E} (T : Tracks E A st) (p : List ℝ) (hp : st.kf.hParamsSize E.KP ≤ p.length) :
    Tracks E (A.step (.setKernelParams p)) (setKernelParams st p) := by
  by_cases hA : A.xs = []
  · refine ⟨T.samples, fun _ => ⟨(T.empty hA).1, ?_, (T.empty hA).2.2⟩, fun h => absurd hA h, ?_, fun h => absurd hA h, ?_, fun h => absurd hA h,
      fun h => absurd hA h⟩
    · simp [GpAbs.step, hA, (T.empty hA).2.1]
    · refine ⟨?_, T.reach.2⟩
      rcases T.reach.1 with h | h
      · exact Or.inl h
      · exact Or.inr (.set p h hp)
    · intro _
      have := T.kok (T.empty hA).2.1
      refine ⟨this.rows, this.cols, ?_⟩
      simp only [GpAbs.step, hA, List.length_nil]
      exact ⟨by intro i hi; omega, by intro i hi; omega, by intro i hi; omega⟩
  · have hf : A.xs.isEmpty = false := by simpa using hA
    refine ⟨T.samples, fun h => absurd h hA, fun h => ?_, ?_, ?_, ?_, ?_, ?_⟩
    · obtain ⟨din, dout, hh⟩ := T.ne h
      exact ⟨din, dout, hh.of_eq rfl rfl rfl rfl rfl⟩
    · refine ⟨?_, T.reach.2⟩
      rcases T.reach.1 with h | h
      · exact Or.inl h
      · exact Or.inr (.set p h hp)
    · intro h1 h2
      have := T.mok h1 h2
      exact ⟨this.rows, this.cols, this.e, this.mrows, this.mcols, this.me⟩
    · intro h; simp [GpAbs.step, hf] at h
    · intro _ h; simp [GpAbs.step, hf] at h
    · intro _ h; simp [GpAbs.step, hf] at h

theorem track_setM {A : GpAbs} {st : GpState E} (T : Tracks E A st) (p : List ℝ) (hp : E.M.hSize st.mf ≤ p.length) :
    Tracks E (A.step (.setMeanParams p)) (setMeanParams st p) := by
  refine ⟨T.samples, fun h => T.empty h, fun h => ?_, ⟨T.reach.1, ?_⟩, ?_, ?_, ?_, ?_⟩
  · obtain ⟨din, dout, hh⟩ := T.ne h
    exact ⟨din, dout, hh.of_eq rfl rfl rfl rfl rfl⟩
  · rcases T.reach.2 with h | h
    · exact Or.inl h
    · exact Or.inr (.set p h hp)
  · intro h1 h2
    have hf : A.xs.isEmpty = false := by simpa [GpAbs.step] using h1
    simp [GpAbs.step, hf] at h2
  · intro h
    have := T.kok h
    exact ⟨this.rows, this.cols, this.chol⟩
  · intro h1 h2
    have hf : A.xs.isEmpty = false := by simpa [GpAbs.step] using h1
    simp [GpAbs.step, hf] at h2
  · intro h1 h2 h3
    have := T.iok h1 h2 h3
    exact ⟨this.rows, this.cols, this.sol⟩

theorem track_recompute (hE : LawfulEnv E) (junk : Nat → Nat → ℝ) {A : GpAbs} {st st' : GpState E} (T : Tracks E A st) {um uk : Bool}
    (h : recompute junk st um uk = some st') :
    Tracks E (A.step (.recompute um uk)) st' ∧ st'.kf = st.kf ∧ st'.mf = st.mf ∧ st'.dimIn = st.dimIn ∧ st'.dimOut = st.dimOut := by
  unfold recompute at h
  by_cases hs : st.samples = []
  · rw [if_pos hs] at h; cases h
  rw [if_neg hs, Option.bind_eq_some_iff] at h
  obtain ⟨st1, h1, h2⟩ := h
  have hA : A.xs ≠ [] := by rw [← T.samples]; exact hs
  obtain ⟨din, dout, hh⟩ := T.ne hA
  -- after the optional recentring
  have hst1 : ∃ mv om, st1 = { st with meanVector := mv, obsMean := om } ∧ ((A.m || um) = true → MeanSync st1 A.xs.length dout) := by
    cases um with
    | true =>
      simp only [if_true] at h1
      obtain ⟨mv, om, e, hms⟩ := meanObs_form junk hh
      rw [h1] at e
      cases Option.some.inj e
      exact ⟨mv, om, rfl, fun _ => hms⟩
    | false =>
      simp only [Bool.false_eq_true, if_false, Option.some.injEq] at h1
      subst h1
      refine ⟨_, _, rfl, ?_⟩
      intro hm
      simp only [Bool.or_false] at hm
      have := T.mok hA hm
      rw [hh.dimOut] at this
      simpa using this
  obtain ⟨mv, om, e1, hms⟩ := hst1
  subst e1
  have hdo : st.dimOut.toNat = dout := by rw [hh.dimOut]; simp
  have hkok := T.kokd hE hh
  have hlen : st.samples.length = A.xs.length := by rw [T.samples]
  cases uk with
  | true =>
    simp only [if_true] at h2
    obtain ⟨k, l, al, e, hk, hal⟩ := fullKernel_form hE.llt junk (st := { st with meanVector := mv, obsMean := om }) hkok
      (by show ∀ x ∈ st.samples, _; rw [T.samples]; exact hh.data.inputs) (fullKernel_needs junk h2).1
    rw [h2] at e
    cases Option.some.inj e
    have hk' : KernSync { st with meanVector := mv, obsMean := om, kernel := k, L := l, alpha := al, invUpdated := false } A.xs.length := by
      rw [← hlen]; exact hk
    refine ⟨⟨T.samples, fun e => absurd e hA, fun _ => ⟨din, dout, hh.of_eq rfl rfl rfl rfl rfl⟩, T.reach, ?_, fun _ => hk', ?_, ?_⟩, rfl, rfl, rfl, rfl⟩
    · intro _ hm
      simp only [hdo]
      have := hms hm
      exact ⟨this.rows, this.cols, this.e, this.mrows, this.mcols, this.me⟩
    · intro _ ha
      simp only [hdo]
      simp only [GpAbs.step, Bool.and_eq_true] at ha
      have := hms ha.1
      exact alphaSol_of hk' ⟨this.rows, this.cols, this.e, this.mrows, this.mcols, this.me⟩ hal
    · intro _ _ h; cases h
  | false =>
    simp only [Bool.false_eq_true, if_false] at h2
    obtain ⟨al, e, hr, hal⟩ := alpha_shape h2
    subst e
    refine ⟨⟨T.samples, fun e => absurd e hA, fun _ => ⟨din, dout, hh.of_eq rfl rfl rfl rfl rfl⟩, T.reach, ?_, ?_, ?_, ?_⟩, rfl, rfl, rfl, rfl⟩
    · intro _ hm
      simp only [hdo]
      have := hms hm
      exact ⟨this.rows, this.cols, this.e, this.mrows, this.mcols, this.me⟩
    · intro hk
      simp only [GpAbs.step, Bool.or_false] at hk
      have := T.kok hk
      exact ⟨this.rows, this.cols, this.chol⟩
    · intro _ ha
      simp only [hdo]
      simp only [GpAbs.step, Bool.and_eq_true, Bool.or_false] at ha
      have := hms ha.1
      have hk := T.kok ha.2
      exact alphaSol_of ⟨hk.rows, hk.cols, hk.chol⟩ ⟨this.rows, this.cols, this.e, this.mrows, this.mcols, this.me⟩ hal
    · intro h1 h2 h3
      simp only [GpAbs.step, Bool.or_false] at h2
      have := T.iok h1 h2 h3
      exact ⟨this.rows, this.cols, this.sol⟩

theorem recompute_progress (hE : LawfulEnv E) (junk : Nat → Nat → ℝ) {A : GpAbs} {st : GpState E} (T : Tracks E A st) {um uk : Bool}
    (hc : A.Callable (.recompute um uk)) : ∃ st', recompute junk st um uk = some st' := by
  obtain ⟨hA, hm, hk⟩ := hc
  have hs : st.samples ≠ [] := by rw [T.samples]; exact hA
  obtain ⟨din, dout, hh⟩ := T.ne hA
  unfold recompute
  rw [if_neg hs]
  have h1 : ∃ mv om, (if um then computeObsMean junk st else some st) = some { st with meanVector := mv, obsMean := om } ∧
      om.rows = A.xs.length := by
    cases um with
    | true =>
      obtain ⟨mv, om, e, hms⟩ := meanObs_form junk hh
      exact ⟨mv, om, by simpa using e, hms.rows⟩
    | false =>
      have := T.mok hA (by simpa using hm)
      exact ⟨_, _, rfl, this.rows⟩
  obtain ⟨mv, om, e, hr⟩ := h1
  rw [e, Option.bind_some]
  cases uk with
  | true =>
    simp only [if_true]
    obtain ⟨k, l, al, e, _⟩ := fullKernel_form hE.llt junk (st := { st with meanVector := mv, obsMean := om }) (T.kokd hE hh)
      (by show ∀ x ∈ st.samples, _; rw [T.samples]; exact hh.data.inputs) (by show om.rows = st.samples.length; rw [hr, T.samples])
    exact ⟨_, e⟩
  | false =>
    simp only [Bool.false_eq_true, if_false]
    have := (T.kok (by simpa using hk)).rows
    obtain ⟨st', e, _⟩ := computeAlpha_ok (st := { st with meanVector := mv, obsMean := om }) (by show st.L.rows = om.rows; rw [this, hr])
    exact ⟨st', e⟩

/-- storing a likelihood changes nothing else -/
theorem track_logs {A : GpAbs} {st : GpState E} (T : Tracks E A st) (v w : ℝ) : Tracks E A { st with logLik := v, logLoo := w } := by
  refine ⟨T.samples, T.empty, fun h => ?_, T.reach, ?_, ?_, ?_, ?_⟩
  · obtain ⟨din, dout, hh⟩ := T.ne h
    exact ⟨din, dout, hh.of_eq rfl rfl rfl rfl rfl⟩
  · intro h1 h2
    have := T.mok h1 h2
    exact ⟨this.rows, this.cols, this.e, this.mrows, this.mcols, this.me⟩
  · intro h
    have := T.kok h
    exact ⟨this.rows, this.cols, this.chol⟩
  · intro h1 h2
    have := T.aok h1 h2
    exact ⟨this.rows, this.cols, this.sol⟩
  · intro h1 h2 h3
    have := T.iok h1 h2 h3
    exact ⟨this.rows, this.cols, this.sol⟩

theorem track_inv {A : GpAbs} {st st' : GpState E} (T : Tracks E A st) (h : computeInvKernel st = some st') :
    Tracks E { A with i := A.k } st' ∧ st' = { st with invKernel := st'.invKernel, invUpdated := true } := by
  have hshape : ∃ iv, st' = { st with invKernel := iv, invUpdated := true } := by
    unfold computeInvKernel at h
    simp only at h
    split at h
    · cases h; exact ⟨_, rfl⟩
    · cases h
  obtain ⟨iv, e⟩ := hshape
  subst e
  refine ⟨⟨T.samples, T.empty, fun h => ?_, T.reach, ?_, ?_, ?_, ?_⟩, rfl⟩
  · obtain ⟨din, dout, hh⟩ := T.ne h
    exact ⟨din, dout, hh.of_eq rfl rfl rfl rfl rfl⟩
  · intro h1 h2
    have := T.mok h1 h2
    exact ⟨this.rows, this.cols, this.e, this.mrows, this.mcols, this.me⟩
  · intro h
    have := T.kok h
    exact ⟨this.rows, this.cols, this.chol⟩
  · intro h1 h2
    have := T.aok h1 h2
    exact ⟨this.rows, this.cols, this.sol⟩
  · intro _ h2 _
    exact (invSync_of (T.kok h2) h).1

theorem Tracks.weaken_i {A : GpAbs} {st : GpState E} (T : Tracks E A st) (b : Bool) (hb : b = true → A.i = true) : Tracks E { A with i := b } st :=
  ⟨T.samples, T.empty, T.ne, T.reach, T.mok, T.kok, T.aok, fun h1 h2 h3 => T.iok h1 (hb h2) h3⟩

theorem track_ensureInv {A : GpAbs} {st st' : GpState E} (T : Tracks E A st) (h : ensureInv st = some st') :
    Tracks E { A with i := A.i && A.k } st' ∧
      (∃ iv, st' = { st with invKernel := iv, invUpdated := true }) ∧
      (A.xs ≠ [] → A.i = true → A.k = true → InvSync st' A.xs.length) := by
  unfold ensureInv at h
  by_cases hu : st.invUpdated = true
  · rw [if_pos hu] at h
    cases h
    refine ⟨T.weaken_i _ (fun h => by simp only [Bool.and_eq_true] at h; exact h.1), ⟨st.invKernel, ?_⟩, fun h1 h2 _ => T.iok h1 h2 hu⟩
    rw [← hu]
  · rw [if_neg hu] at h
    obtain ⟨h1, h2⟩ := track_inv T h
    refine ⟨?_, ⟨_, h2⟩, fun h3 _ h5 => h1.iok h3 h5 ?_⟩
    · have := h1.weaken_i (A.i && A.k) (fun h => by simp only [Bool.and_eq_true] at h; exact h.2)
      exact this
    · rw [h2]

/-- The state a successful `load` builds before reading or recomputing the factor. -/
noncomputable def loaded (st : GpState E) (a : Saved) (kf : BaseK E.K) (mf : E.M.St) : GpState E :=
  { st with samples := a.samples, obs := a.observations, dimIn := (a.samples.headD []).length, kf := kf,
            dimOut := a.observations.cols, mf := mf, meanObs := colMean a.observations }

theorem load_shape (junk : Nat → Nat → ℝ) {st st' : GpState E} {a : Saved} {r : Bool} (h : load junk st a r = some st') :
    ∃ kf mf, KReach E.K E.KP (a.samples.headD []).length kf ∧ MReach E.M a.observations.cols mf ∧ a.samples ≠ [] ∧
      (if r then recompute junk (loaded st a kf mf) true true
       else some { loaded st a kf mf with L := a.matrixL, alpha := a.alpha }) = some st' := by
  unfold load at h
  by_cases hs : a.samples = []
  · rw [if_pos hs] at h; cases h
  rw [if_neg hs] at h
  simp only at h
  rw [Option.bind_eq_some_iff] at h
  obtain ⟨kf, hkf, h⟩ := h
  rw [Option.bind_eq_some_iff] at h
  obtain ⟨mf, hmf, h⟩ := h
  refine ⟨kf, mf, ?_, ?_, hs, h⟩
  · split at hkf
    · rw [Option.bind_eq_some_iff] at hkf
      obtain ⟨p, _, hp⟩ := hkf
      split at hp
      · rename_i hl; cases hp; exact .set p .new hl.ge
      · cases hp
    · cases hkf; exact .new
  · split at hmf
    · rw [Option.bind_eq_some_iff] at hmf
      obtain ⟨p, _, hp⟩ := hmf
      split at hp
      · rename_i hl; cases hp; exact .set p .new hl.ge
      · cases hp
    · cases hmf; exact .new

theorem rowsOf_getD (o : Mat) (i : Nat) (hi : i < o.rows) (c : Nat) (hc : c < o.cols) : at' ((rowsOf o).getD i []) c = o.e i c := by
  unfold rowsOf at'
  simp [List.getD, hi, hc]

theorem headD_len {xs : List (List ℝ)} {d : Nat} (hne : xs ≠ []) (h : ∀ x ∈ xs, x.length = d) : (xs.headD []).length = d := by
  obtain ⟨x, xs', rfl⟩ := List.exists_cons_of_ne_nil hne
  exact h x (by simp)

theorem loaded_hasData {st : GpState E} {a : Saved} {kf : BaseK E.K} {mf : E.M.St} {din dout : Nat}
    (hd : DataSet a.samples (rowsOf a.observations) din dout) : HasData (loaded st a kf mf) a.samples (rowsOf a.observations) din dout := by
  have hr : a.observations.rows = a.samples.length := by have := hd.same; simpa [rowsOf] using this
  have hpos : 0 < a.observations.rows := by rw [hr]; exact List.length_pos_iff.2 hd.nonempty
  have hc : a.observations.cols = dout := by
    have := hd.outputs ((List.range a.observations.cols).map fun c => a.observations.e 0 c)
      (by unfold rowsOf; exact List.mem_map.2 ⟨0, List.mem_range.2 hpos, rfl⟩)
    simpa using this
  refine ⟨hd, ?_, ?_, rfl, hr, hc, ?_, rfl⟩
  · show (((a.samples.headD []).length : Nat) : Int) = din
    rw [headD_len hd.nonempty hd.inputs]
  · show ((a.observations.cols : Nat) : Int) = dout
    rw [hc]
  · intro i hi c hc'
    rw [rowsOf_getD _ i (by omega) c (by omega)]; rfl

theorem track_load (hE : LawfulEnv E) (junk : Nat → Nat → ℝ) {A : GpAbs} {st st' : GpState E} {a : Saved} {r : Bool}
    (hsane : (Op.load a r).Sane) (h : load junk st a r = some st') : Tracks E (A.step (.load a r)) st' := by
  obtain ⟨din, dout, hd⟩ := hsane
  obtain ⟨kf, mf, hreach, hmreach, hne, h⟩ := load_shape junk h
  have hh : HasData (loaded st a kf mf) a.samples (rowsOf a.observations) din dout := loaded_hasData hd
  have hT : Tracks E ⟨a.samples, rowsOf a.observations, false, false, false, false⟩ (loaded st a kf mf) := by
    refine ⟨rfl, fun e => absurd e hne, fun _ => ⟨din, dout, hh⟩, ⟨Or.inr ?_, Or.inr ?_⟩, ?_, ?_, ?_, ?_⟩
    · exact hreach
    · exact hmreach
    · intro _ h; cases h
    · intro h; cases h
    · intro _ h; cases h
    · intro _ h; cases h
  cases r with
  | true =>
    simp only [if_true] at h
    have := (track_recompute hE junk hT h).1
    simpa [GpAbs.step] using this
  | false =>
    simp only [Bool.false_eq_true, if_false, Option.some.injEq] at h
    subst h
    refine ⟨rfl, fun e => absurd e hne, fun _ => ⟨din, dout, hh.of_eq rfl rfl rfl rfl rfl⟩, ⟨Or.inr hreach, Or.inr hmreach⟩, ?_, ?_, ?_, ?_⟩
    · intro _ h; cases h
    · intro h; cases h
    · intro _ h; cases h
    · intro _ h; cases h

/-! ### one call, any call -/

theorem logLik_shape {st : GpState E} {r : GpState E × ℝ} (h : computeLogLik st = some r) : r.1 = { st with logLik := r.2 } := by
  unfold computeLogLik at h
  simp only at h
  split at h
  · cases h; rfl
  · cases h

theorem gradK_shape {st : GpState E} {r : GpState E × (Nat → ℝ)} (h : kernelGradLogLik st = some r) : ensureInv st = some r.1 := by
  unfold kernelGradLogLik at h
  simp only [Option.bind_eq_bind] at h
  rw [Option.bind_eq_some_iff] at h
  obtain ⟨s, h1, h2⟩ := h
  split at h2
  · cases h2; exact h1
  · cases h2

theorem gradM_shape {st : GpState E} {r : GpState E × (Nat → ℝ)} (h : meanGradLogLik st = some r) : ensureInv st = some r.1 := by
  unfold meanGradLogLik at h
  simp only [Option.bind_eq_bind] at h
  rw [Option.bind_eq_some_iff] at h
  obtain ⟨s, h1, h2⟩ := h
  split at h2
  · rw [Option.bind_eq_some_iff] at h2
    obtain ⟨g, _, h3⟩ := h2
    cases h3; exact h1
  · cases h2

theorem loo_shape {st : GpState E} {r : GpState E × ℝ} (h : computeLogLoo st = some r) :
    ∃ s, ensureInv st = some s ∧ r.1 = { s with logLoo := r.2 } := by
  unfold computeLogLoo at h
  simp only [Option.bind_eq_bind] at h
  rw [Option.bind_eq_some_iff] at h
  obtain ⟨s, h1, h2⟩ := h
  split at h2
  · cases h2; exact ⟨s, h1, rfl⟩
  · cases h2

theorem gradLoo_shape {st : GpState E} {r : GpState E × (Nat → ℝ)} (h : kernelGradLogLoo st = some r) : ensureInv st = some r.1 := by
  unfold kernelGradLogLoo at h
  simp only [Option.bind_eq_bind] at h
  rw [Option.bind_eq_some_iff] at h
  obtain ⟨s, h1, h2⟩ := h
  split at h2
  · cases h2; exact h1
  · cases h2

theorem track_step (hE : LawfulEnv E) (junk : Nat → Nat → ℝ) {A : GpAbs} {st st' : GpState E} (T : Tracks E A st) {op : Op} (hs : op.Sane)
    (h : step st op junk = some st') : Tracks E (A.step op) st' := by
  cases op with
  | compute xs ys ck =>
    obtain ⟨s, h1, h2, _⟩ := track_compute hE junk T (compute_dataset junk h) ck
    have h : compute junk st xs ys ck = some st' := h
    rw [h1] at h; cases h; exact h2
  | add x y =>
    obtain ⟨s, h1, h2, _⟩ := track_add hE junk T (addSample_dataset junk T h)
    have h : addSample junk st x y = some st' := h
    rw [h1] at h; cases h; exact h2
  | recompute um uk => exact (track_recompute hE junk T h).1
  | setKernelParams p =>
    simp only [step] at h
    by_cases hp : st.kf.hParamsSize E.KP ≤ p.length
    · rw [if_pos hp] at h; cases h; exact track_setK T p hp
    · rw [if_neg hp] at h; cases h
  | setMeanParams p =>
    simp only [step] at h
    by_cases hp : E.M.hSize st.mf ≤ p.length
    · rw [if_pos hp] at h; cases h; exact track_setM T p hp
    · rw [if_neg hp] at h; cases h
  | computeInvKernel => exact (track_inv T h).1
  | computeLogLik =>
    simp only [step, Option.map_eq_some_iff] at h
    obtain ⟨r, h1, h2⟩ := h
    rw [← h2, logLik_shape h1]
    exact track_logs T _ st.logLoo
  | kernelGradLogLik =>
    simp only [step, Option.map_eq_some_iff] at h
    obtain ⟨r, h1, h2⟩ := h
    rw [← h2]; exact (track_ensureInv T (gradK_shape h1)).1
  | meanGradLogLik =>
    simp only [step, Option.map_eq_some_iff] at h
    obtain ⟨r, h1, h2⟩ := h
    rw [← h2]; exact (track_ensureInv T (gradM_shape h1)).1
  | computeLogLoo =>
    simp only [step, Option.map_eq_some_iff] at h
    obtain ⟨r, h1, h2⟩ := h
    obtain ⟨s, h3, h4⟩ := loo_shape h1
    rw [← h2, h4]
    exact track_logs (track_ensureInv T h3).1 s.logLik _
  | kernelGradLogLoo =>
    simp only [step, Option.map_eq_some_iff] at h
    obtain ⟨r, h1, h2⟩ := h
    rw [← h2]; exact (track_ensureInv T (gradLoo_shape h1)).1
  | load a r => exact track_load hE junk hs h

theorem track_run (hE : LawfulEnv E) : ∀ (ops : List (Op × (Nat → Nat → ℝ))) {A : GpAbs} {st st' : GpState E}, Tracks E A st →
    (∀ o ∈ ops, o.1.Sane) → run st ops = some st' → Tracks E (A.run ops) st' := by
  intro ops
  induction ops with
  | nil => intro A st st' T _ h; cases h; exact T
  | cons o ops ih =>
    intro A st st' T hs h
    obtain ⟨op, junk⟩ := o
    simp only [run] at h
    rw [Option.bind_eq_some_iff] at h
    obtain ⟨s, h1, h2⟩ := h
    exact ih (track_step hE junk T (hs (op, junk) (by simp)) h1) (fun o ho => hs o (by simp [ho])) h2

theorem track_new (u : ℝ × ℝ) : Tracks E .init (new E u) := by
  refine ⟨rfl, fun _ => ⟨rfl, rfl, rfl⟩, fun h => absurd rfl h, ⟨Or.inl rfl, Or.inl rfl⟩, fun h => absurd rfl h, fun _ => ⟨rfl, rfl, ?_⟩, fun h => absurd rfl h,
    fun h => absurd rfl h⟩
  exact ⟨by intro i hi; simp [GpAbs.init] at hi, by intro i hi; simp [GpAbs.init] at hi, by intro i hi; simp [GpAbs.init] at hi⟩

theorem track_newDims (u : ℝ × ℝ) (din dout : Nat) : Tracks E .init (newDims E u din dout) := by
  refine ⟨rfl, fun _ => ⟨rfl, rfl, rfl⟩, fun h => absurd rfl h, ⟨Or.inr ?_, Or.inr ?_⟩, fun h => absurd rfl h, fun _ => ⟨rfl, rfl, ?_⟩, fun h => absurd rfl h,
    fun h => absurd rfl h⟩
  · simpa [newDims] using KReach.new
  · simpa [newDims] using MReach.new
  · exact ⟨by intro i hi; simp [GpAbs.init] at hi, by intro i hi; simp [GpAbs.init] at hi, by intro i hi; simp [GpAbs.init] at hi⟩

/-! ### progress -/

theorem inv_progress {A : GpAbs} {st : GpState E} (T : Tracks E A st) (hne : A.xs ≠ []) (hk : A.k = true) (hm : A.m = true) :
    ∃ st', computeInvKernel st = some st' := by
  unfold computeInvKernel
  simp only
  rw [if_pos (by rw [(T.kok hk).rows, (T.mok hne hm).rows])]
  exact ⟨_, rfl⟩

theorem ensure_progress {A : GpAbs} {st : GpState E} (T : Tracks E A st) (hne : A.xs ≠ []) (hk : A.k = true) (hm : A.m = true) :
    ∃ st', ensureInv st = some st' := by
  unfold ensureInv
  split
  · exact ⟨_, rfl⟩
  · exact inv_progress T hne hk hm

theorem step_progress (hE : LawfulEnv E) (junk : Nat → Nat → ℝ) {A : GpAbs} {st : GpState E} (T : Tracks E A st) {op : Op} (hc : A.Callable op)
    (hk : ∀ p, op = .setKernelParams p → st.kf.hParamsSize E.KP ≤ p.length) (hm : ∀ p, op = .setMeanParams p → E.M.hSize st.mf ≤ p.length) :
    ∃ st', step st op junk = some st' := by
  cases op with
  | compute xs ys ck =>
    obtain ⟨din, dout, hd⟩ := hc
    obtain ⟨s, h1, _⟩ := track_compute hE junk T hd ck
    exact ⟨s, h1⟩
  | add x y =>
    obtain ⟨din, dout, hd⟩ := hc
    obtain ⟨s, h1, _⟩ := track_add hE junk T hd
    exact ⟨s, h1⟩
  | recompute um uk => exact recompute_progress hE junk T hc
  | setKernelParams p => exact ⟨_, if_pos (hk p rfl)⟩
  | setMeanParams p => exact ⟨_, if_pos (hm p rfl)⟩
  | computeInvKernel => exact inv_progress T hc.1 hc.2.1 hc.2.2.1
  | computeLogLik =>
    obtain ⟨h0, h1, h2, h3, h4⟩ := hc
    simp only [step, computeLogLik]
    rw [if_pos ⟨by rw [(T.mok h0 h2).rows, (T.aok h0 h3).rows], by rw [(T.mok h0 h2).cols, (T.aok h0 h3).cols]⟩]
    exact ⟨_, rfl⟩
  | kernelGradLogLik =>
    obtain ⟨h0, h1, h2, h3, h4⟩ := hc
    obtain ⟨s, hs⟩ := ensure_progress T h0 h1 h2
    obtain ⟨-, ⟨iv, e⟩, hi⟩ := track_ensureInv T hs
    have hir := (hi h0 h4 h1).rows
    simp only [step, kernelGradLogLik, hs, Option.bind_eq_bind, Option.bind_some]
    subst e
    rw [if_pos]
    · exact ⟨_, rfl⟩
    · refine ⟨by rw [(T.aok h0 h3).rows, hir], by rw [(T.aok h0 h3).rows, (T.mok h0 h2).rows], by rw [(T.mok h0 h2).rows, T.samples]⟩
  | meanGradLogLik => exact hc.elim
  | computeLogLoo =>
    obtain ⟨h0, h1, h2, h3, h4⟩ := hc
    obtain ⟨s, hs⟩ := ensure_progress T h0 h1 h2
    obtain ⟨-, ⟨iv, e⟩, hi⟩ := track_ensureInv T hs
    have hir := (hi h0 h4 h1).rows
    simp only [step, computeLogLoo, hs, Option.bind_eq_bind, Option.bind_some]
    subst e
    rw [if_pos]
    · exact ⟨_, rfl⟩
    · rw [(T.aok h0 h3).rows, hir]
  | kernelGradLogLoo =>
    obtain ⟨h0, h1, h2, h3, h4⟩ := hc
    obtain ⟨s, hs⟩ := ensure_progress T h0 h1 h2
    obtain ⟨-, ⟨iv, e⟩, hi⟩ := track_ensureInv T hs
    have hir := (hi h0 h4 h1).rows
    simp only [step, kernelGradLogLoo, hs, Option.bind_eq_bind, Option.bind_some]
    subst e
    rw [if_pos]
    · exact ⟨_, rfl⟩
    · refine ⟨by rw [(T.aok h0 h3).rows, (T.mok h0 h2).rows], by rw [hir, (T.mok h0 h2).rows], by rw [(T.mok h0 h2).rows, T.samples],
        by rw [(T.aok h0 h3).cols]⟩
  | load a r => exact hc.elim

end Gp

end Limbo
