import Verif.Model.Gp
import Mathlib.Data.List.GetD
import Verif.Spec.Gp
import Verif.Spec.GpHist
import Verif.Spec.Mean
import Verif.Lemmas.Chol
import Mathlib.Tactic.NormNum
import Mathlib.Tactic.Positivity

set_option linter.unusedSectionVars false

namespace Limbo

open Finset

/-! ## loops -/

theorem forN_rows (n : Nat) (F : Nat → Nat → ℝ) (m : Mat) :
    forN n (fun i (m : Mat) => { m with e := fun a c => if a = i then F i c else m.e a c }) m
      = { m with e := fun a c => if a < n then F a c else m.e a c } := by
  induction n with
  | zero => simp [forN]
  | succ n ih =>
    rw [forN, ih]
    simp only [Mat.mk.injEq, true_and]
    funext a c
    by_cases h : a = n
    · subst h; simp
    · by_cases h2 : a < n
      · simp [h, h2, Nat.lt_succ_of_lt h2]
      · simp [h, h2, show ¬ a < n + 1 by omega]

theorem forN_sets (i : Nat) (m : Nat) (F : Nat → ℝ) (k : Mat) :
    forN m (fun j (k : Mat) => k.set i j (F j)) k = { k with e := fun a b => if a = i ∧ b < m then F b else k.e a b } := by
  induction m with
  | zero => simp [forN]
  | succ m ih =>
    rw [forN, ih]
    simp only [Mat.set, Mat.mk.injEq, true_and]
    funext a b
    by_cases h : a = i
    · by_cases h2 : b = m
      · subst h h2; simp
      · by_cases h3 : b < m
        · simp [h, h2, h3, Nat.lt_succ_of_lt h3]
        · simp [h, h2, h3, show ¬ b < m + 1 by omega]
    · simp [h]

theorem forN_lower (n : Nat) (F : Nat → Nat → ℝ) (k : Mat) :
    forN n (fun i (k : Mat) => forN (i + 1) (fun j (k : Mat) => k.set i j (F i j)) k) k
      = { k with e := fun a b => if a < n ∧ b ≤ a then F a b else k.e a b } := by
  induction n with
  | zero => simp [forN]
  | succ n ih =>
    rw [forN, ih, forN_sets]
    simp only [Mat.mk.injEq, true_and]
    funext a b
    by_cases h : a = n
    · subst h
      by_cases h2 : b ≤ a
      · simp [h2, Nat.lt_succ_of_le h2]
      · simp [h2, show ¬ b < a + 1 by omega]
    · by_cases h2 : a < n
      · simp [h, h2, Nat.lt_succ_of_lt h2]
      · simp [h, h2, show ¬ a < n + 1 by omega]

theorem forN_mirror_row (i : Nat) (m : Nat) (hm : m ≤ i) (k : Mat) :
    forN m (fun j (k : Mat) => k.set j i (k.e i j)) k = { k with e := fun a b => if b = i ∧ a < m then k.e i a else k.e a b } := by
  induction m with
  | zero => simp [forN]
  | succ m ih =>
    rw [forN, ih (by omega)]
    simp only [Mat.set, Mat.mk.injEq, true_and]
    funext a b
    by_cases h : b = i
    · by_cases h2 : a = m
      · subst h h2
        have : ¬ a = b := by omega
        simp [this]
      · by_cases h3 : a < m
        · simp [h, h2, h3, Nat.lt_succ_of_lt h3]
        · simp [h, h2, h3, show ¬ a < m + 1 by omega]
    · simp [h]

theorem forN_mirror (n : Nat) (k : Mat) :
    forN n (fun i (k : Mat) => forN i (fun j (k : Mat) => k.set j i (k.e i j)) k) k
      = { k with e := fun a b => if b < n ∧ a < b then k.e b a else k.e a b } := by
  induction n with
  | zero => simp [forN]
  | succ n ih =>
    rw [forN, ih, forN_mirror_row n n (Nat.le_refl _)]
    simp only [Mat.mk.injEq, true_and]
    funext a b
    by_cases h : b = n
    · subst h
      by_cases h2 : a < b
      · simp [h2, show ¬ b < a by omega]
      · simp [h2]
    · by_cases h2 : b < n
      · simp [h, h2, Nat.lt_succ_of_lt h2]
      · simp [h, h2, show ¬ b < n + 1 by omega]

/-- the two loops of `_compute_full_kernel` fill the whole matrix -/
theorem fill_kernel (n : Nat) (F : Nat → Nat → ℝ) (k : Mat) :
    (forN n (fun i (k : Mat) => forN i (fun j (k : Mat) => k.set j i (k.e i j)) k)
      (forN n (fun i (k : Mat) => forN (i + 1) (fun j (k : Mat) => k.set i j (F i j)) k) k))
      = { k with e := fun a b => if b < n ∧ a < b then F b a else if a < n ∧ b ≤ a then F a b else k.e a b } := by
  rw [forN_lower, forN_mirror]
  simp only [Mat.mk.injEq, true_and]
  funext a b
  by_cases h : b < n ∧ a < b
  · simp [h, show a ≤ b by omega]
  · simp [h]

/-- the new row and column of `_compute_incremental_kernel` -/
theorem fill_border (n : Nat) (hn : 0 < n) (F : Nat → ℝ) (k : Mat) :
    ∀ m ≤ n, forN m (fun i (k : Mat) => (k.set i (n - 1) (F i)).set (n - 1) i ((k.set i (n - 1) (F i)).e i (n - 1))) k
      = { k with e := fun a b => if b = n - 1 ∧ a < m then F a else if a = n - 1 ∧ b < m then F b else k.e a b } := by
  intro m
  induction m with
  | zero => intro _; simp [forN]
  | succ m ih =>
    intro hm
    rw [forN, ih (by omega)]
    simp only [Mat.set, Mat.mk.injEq, true_and]
    funext a b
    simp only [and_self, if_true]
    by_cases h1 : b = n - 1
    · by_cases h2 : a = m
      · subst h1 h2
        by_cases h3 : a = n - 1
        · subst h3; simp
        · simp [h3]
      · by_cases h3 : a < m
        · have : ¬ a = n - 1 := by omega
          subst h1; simp [h2, h3, this, Nat.lt_succ_of_lt h3]
        · by_cases h4 : a = n - 1
          · subst h1 h4
            have : ¬ n - 1 = m := h2
            have h6 : ¬ n - 1 < m + 1 := by omega
            simp [this, h3, h6]
          · subst h1
            simp [h2, h3, h4, show ¬ a < m + 1 by omega]
    · by_cases h2 : a = n - 1
      · by_cases h3 : b = m
        · subst h2 h3; simp [h1]
        · by_cases h4 : b < m
          · subst h2; simp [h1, h3, h4, Nat.lt_succ_of_lt h4]
          · subst h2; simp [h1, h3, h4, show ¬ b < m + 1 by omega]
      · simp [h1, h2]

/-- the row loop of `_compute_incremental_kernel` is forward substitution -/
theorem incr_row (r : Nat) (K : Nat → Nat → ℝ) (l : Mat) :
    ∀ m ≤ r, forN m (fun j (l : Mat) => l.set r j ((K r j - ∑ q ∈ range j, l.e j q * l.e r q) / l.e j j)) l
      = { l with e := fun a b => if a = r ∧ b < m then fsub l.e (fun j => K r j) b else l.e a b } := by
  intro m
  induction m with
  | zero => intro _; simp [forN]
  | succ m ih =>
    intro hm
    rw [forN, ih (by omega)]
    have hne : ¬ m = r := by omega
    simp only [Mat.set, Mat.mk.injEq, true_and, hne, false_and, if_false]
    funext a b
    by_cases h : a = r
    · by_cases h2 : b = m
      · subst h h2
        simp only [and_self, if_true, true_and, Nat.lt_succ_self]
        rw [fsub_eq]
        congr 2
        apply sum_congr rfl
        intro q hq
        rw [mem_range] at hq
        rw [if_pos hq]
      · by_cases h3 : b < m
        · simp [h, h2, h3, Nat.lt_succ_of_lt h3]
        · simp [h, h2, h3, show ¬ b < m + 1 by omega]
    · simp [h]

namespace Gp

variable {E : GpEnv}

/-- The covariance matrix of the data, indexed by numbers. -/
noncomputable def gramN (kf : BaseK E.K) (xs : List (List ℝ)) (i j : Nat) : ℝ :=
  E.K.kernel kf.inner (xs.getD i []) (xs.getD j []) + if i = j then kf.noise + 1e-8 else 0

/-- The kernel functor is usable on vectors of length `d`. -/
structure KOK (kf : BaseK E.K) (d : Nat) : Prop where
  cov : Covariance (E.K.kernel kf.inner) d
  noise : 0 ≤ kf.noise

theorem getD_mem {xs : List (List ℝ)} {i : Nat} (h : i < xs.length) : xs.getD i [] ∈ xs := by
  rw [List.getD_eq_getElem _ _ h]; exact List.getElem_mem h

theorem getD_len {xs : List (List ℝ)} {d : Nat} (hx : ∀ x ∈ xs, x.length = d) {i : Nat} (h : i < xs.length) : (xs.getD i []).length = d :=
  hx _ (getD_mem h)

theorem gram_pd {kf : BaseK E.K} {d : Nat} (hk : KOK kf d) {xs : List (List ℝ)} (hx : ∀ x ∈ xs, x.length = d) :
    PD xs.length (gramN kf xs) := by
  refine ⟨?_, ?_⟩
  · intro i hi j hj
    unfold gramN
    rw [hk.cov.symm _ _ (getD_len hx hi) (getD_len hx hj)]
    by_cases h : i = j
    · subst h; rfl
    · rw [if_neg h, if_neg (fun e => h e.symm)]
  · rintro c ⟨i0, hi0, hne⟩
    have h1 := hk.cov.psd xs hx (fun i => c i)
    have e1 : ∑ i : Fin xs.length, ∑ j : Fin xs.length, c i * E.K.kernel kf.inner xs[i] xs[j] * c j
        = ∑ i ∈ range xs.length, ∑ j ∈ range xs.length, c i * E.K.kernel kf.inner (xs.getD i []) (xs.getD j []) * c j := by
      rw [Finset.sum_range]
      apply sum_congr rfl
      intro i _
      rw [Finset.sum_range]
      apply sum_congr rfl
      intro j _
      rw [List.getD_eq_getElem _ _ i.2, List.getD_eq_getElem _ _ j.2]; rfl
    rw [e1] at h1
    have e2 : ∑ i ∈ range xs.length, ∑ j ∈ range xs.length, c i * gramN kf xs i j * c j
        = ∑ i ∈ range xs.length, ∑ j ∈ range xs.length, c i * E.K.kernel kf.inner (xs.getD i []) (xs.getD j []) * c j
          + (kf.noise + 1e-8) * ∑ i ∈ range xs.length, c i * c i := by
      rw [mul_sum, ← sum_add_distrib]
      apply sum_congr rfl
      intro i hi
      have : ∀ j ∈ range xs.length, c i * gramN kf xs i j * c j
          = c i * E.K.kernel kf.inner (xs.getD i []) (xs.getD j []) * c j + if i = j then (kf.noise + 1e-8) * (c i * c i) else 0 := by
        intro j _
        unfold gramN
        by_cases h : i = j
        · subst h; rw [if_pos rfl, if_pos rfl]; ring
        · rw [if_neg h, if_neg h]; ring
      rw [sum_congr rfl this, sum_add_distrib, sum_ite_eq, if_pos hi]
    rw [e2]
    have h2 : 0 < ∑ i ∈ range xs.length, c i * c i := by
      apply sum_pos'
      · intro i _; exact mul_self_nonneg _
      · exact ⟨i0, mem_range.2 hi0, mul_self_pos.2 hne⟩
    have h3 : 0 < kf.noise + 1e-8 := by have := hk.noise; norm_num; linarith
    have := mul_pos h3 h2
    linarith

/-- The state describes the data `xs`, `ys`: dimensions, data and observation mean. -/
structure HasData (st : GpState E) (xs ys : List (List ℝ)) (din dout : Nat) : Prop where
  data : DataSet xs ys din dout
  dimIn : st.dimIn = din
  dimOut : st.dimOut = dout
  samples : st.samples = xs
  obsRows : st.obs.rows = xs.length
  obsCols : st.obs.cols = dout
  obsE : ∀ i < xs.length, ∀ c < dout, st.obs.e i c = at' (ys.getD i []) c
  meanObs : st.meanObs = colMean st.obs

/-- `_obs_mean` is up to date. -/
structure MeanSync (st : GpState E) (n dout : Nat) : Prop where
  rows : st.obsMean.rows = n
  cols : st.obsMean.cols = dout
  e : ∀ i < n, ∀ c < dout, st.obsMean.e i c = st.obs.e i c - meanAt st (st.samples.getD i []) c
  mrows : st.meanVector.rows = n
  mcols : st.meanVector.cols = dout
  me : ∀ i < n, ∀ c < dout, st.meanVector.e i c = meanAt st (st.samples.getD i []) c

/-- `_matrixL` is up to date. -/
structure KernSync (st : GpState E) (n : Nat) : Prop where
  rows : st.L.rows = n
  cols : st.L.cols = n
  chol : IsChol n st.L.e (gramN st.kf st.samples)

/-- `_alpha` is up to date with `_matrixL` and `_obs_mean`. -/
structure AlphaSync (st : GpState E) : Prop where
  rows : st.alpha.rows = st.obsMean.rows
  cols : st.alpha.cols = st.obsMean.cols
  e : ∀ i c, st.alpha.e i c = bsub st.L.e st.L.rows (fsub st.L.e fun i => st.obsMean.e i c) i

/-- `_alpha` solves the system of the current data. -/
structure AlphaSol (st : GpState E) (n dout : Nat) : Prop where
  rows : st.alpha.rows = n
  cols : st.alpha.cols = dout
  sol : ∀ c < dout, Solves n (gramN st.kf st.samples) (fun i => st.alpha.e i c)
    (fun i => st.obs.e i c - meanAt st (st.samples.getD i []) c)

/-- `_inv_kernel` is the inverse of the covariance matrix. -/
structure InvSync (st : GpState E) (n : Nat) : Prop where
  rows : st.invKernel.rows = n
  cols : st.invKernel.cols = n
  sol : ∀ j < n, Solves n (gramN st.kf st.samples) (fun i => st.invKernel.e i j) (fun i => if i = j then 1 else 0)

/-! ### steps -/

theorem computeObsMean_ok (junk : Nat → Nat → ℝ) {st : GpState E} {xs ys : List (List ℝ)} {din dout : Nat} (h : HasData st xs ys din dout) :
    ∃ st', computeObsMean junk st = some st' ∧ HasData st' xs ys din dout ∧ MeanSync st' xs.length dout ∧
      st' = { st with meanVector := st'.meanVector, obsMean := st'.obsMean } := by
  have hd := h.data
  unfold computeObsMean
  rw [if_neg, if_neg]
  · simp only [forN_rows]
    have hr : (st.meanVector.resize st.samples.length st.dimOut.toNat junk).rows = xs.length := by
      unfold Mat.resize; split
      · rename_i hh; rw [hh.1, h.samples]
      · simp [h.samples]
    have hc : (st.meanVector.resize st.samples.length st.dimOut.toNat junk).cols = dout := by
      unfold Mat.resize; split
      · rename_i hh; rw [hh.2, h.dimOut]; simp
      · simp [h.dimOut]
    rw [if_pos ⟨by rw [h.obsRows, hr], by rw [h.obsCols, hc]⟩]
    refine ⟨_, rfl, ⟨h.data, h.dimIn, h.dimOut, h.samples, h.obsRows, h.obsCols, h.obsE, h.meanObs⟩, ⟨hr, hc, ?_, hr, hc, ?_⟩, rfl⟩
    · intro i hi c _
      simp only [hr, if_pos hi]
      rfl
    · intro i hi c _
      simp only [hr, if_pos hi]
      rfl
  · rw [h.samples]
    simp only [List.any_eq_true, Bool.or_eq_true, decide_eq_true_eq, not_exists, not_and, not_or]
    intro x hx
    have := hd.inputs x hx
    refine ⟨by have := hd.din_pos; omega, ?_⟩
    rw [h.dimIn, this]; simp
  · rw [h.samples, h.dimOut]
    have := hd.dout_pos
    simp [hd.nonempty]; omega

theorem computeAlpha_ok {st : GpState E} (h : st.L.rows = st.obsMean.rows) :
    ∃ st', computeAlpha st = some st' ∧ AlphaSync st' ∧ st' = { st with alpha := st'.alpha } := by
  unfold computeAlpha
  rw [if_pos h]
  exact ⟨_, rfl, ⟨rfl, rfl, fun _ _ => rfl⟩, rfl⟩

theorem getD_append_left {xs : List (List ℝ)} {x : List ℝ} {i : Nat} (h : i < xs.length) : (xs ++ [x]).getD i [] = xs.getD i [] := by
  rw [List.getD_eq_getElem _ _ h, List.getD_eq_getElem _ _ (by simp; omega), List.getElem_append_left h]

theorem getD_append_right {xs : List (List ℝ)} {x : List ℝ} : (xs ++ [x]).getD xs.length [] = x := by simp

theorem computeFullKernel_ok (hllt : LltContract E.llt) (junk : Nat → Nat → ℝ) {st : GpState E} {d : Nat} (hk : KOK st.kf d)
    (hx : ∀ x ∈ st.samples, x.length = d) (hom : st.obsMean.rows = st.samples.length) :
    ∃ st', computeFullKernel junk st = some st' ∧ KernSync st' st.samples.length ∧ AlphaSync st' ∧ st'.invUpdated = false ∧
      st' = { st with kernel := st'.kernel, L := st'.L, alpha := st'.alpha, invUpdated := false } := by
  unfold computeFullKernel
  simp only [fill_kernel]
  set n := st.samples.length with hn
  set kern : Mat := { (st.kernel.resize n n junk) with
      e := fun a b => if b < n ∧ a < b then st.kf.opIJ (st.samples.getD b []) (st.samples.getD a []) b a
        else if a < n ∧ b ≤ a then st.kf.opIJ (st.samples.getD a []) (st.samples.getD b []) a b
        else (st.kernel.resize n n junk).e a b } with hkern
  have hpd := gram_pd hk hx
  have hke : ∀ i < n, ∀ j < n, kern.e i j = gramN st.kf st.samples i j := by
    intro i hi j hj
    simp only [hkern]
    by_cases h : i < j
    · rw [if_pos ⟨hj, h⟩, hpd.symm i hi j hj]; rfl
    · rw [if_neg (by omega), if_pos ⟨hi, by omega⟩]; rfl
  have hch : IsChol n (E.llt n kern.e) (gramN st.kf st.samples) :=
    (hllt n kern.e (hpd.congr fun i hi j hj => (hke i hi j hj).symm)).congr (fun _ _ _ _ => rfl) hke
  obtain ⟨st', h1, h2, h3⟩ := computeAlpha_ok (st := { st with kernel := kern, L := ⟨n, n, E.llt n kern.e⟩ }) (by simp [hom])
  rw [h1]
  refine ⟨{ st' with invUpdated := false }, rfl, ⟨?_, ?_, ?_⟩, ⟨h2.rows, h2.cols, h2.e⟩, rfl, ?_⟩
  · rw [h3]
  · rw [h3]
  · rw [h3]; exact hch
  · rw [h3]

theorem computeIncrementalKernel_ok (junk : Nat → Nat → ℝ) {st : GpState E} {d : Nat} (hk : KOK st.kf d) (xs : List (List ℝ)) (x : List ℝ)
    (hs : st.samples = xs ++ [x]) (hx : ∀ x ∈ st.samples, x.length = d) (hom : st.obsMean.rows = st.samples.length)
    (hold : KernSync { st with samples := xs } xs.length) :
    ∃ st', computeIncrementalKernel junk st = some st' ∧ KernSync st' st.samples.length ∧ AlphaSync st' ∧ st'.invUpdated = false ∧
      st' = { st with kernel := st'.kernel, L := st'.L, alpha := st'.alpha, invUpdated := false } := by
  have hlen : st.samples.length = xs.length + 1 := by rw [hs]; simp
  have hpd := gram_pd hk hx
  unfold computeIncrementalKernel
  simp only [hlen, Nat.add_sub_cancel]
  set n := xs.length with hn
  have hfb := fill_border (n + 1) (Nat.succ_pos n) (fun i => st.kf.opIJ (st.samples.getD i []) (st.samples.getD n []) i n)
    (st.kernel.conservativeResize (n + 1) (n + 1) junk) (n + 1) (Nat.le_refl _)
  simp only [Nat.add_sub_cancel] at hfb
  rw [hfb]
  set kern : Mat := { (st.kernel.conservativeResize (n + 1) (n + 1) junk) with
      e := fun a b => if b = n ∧ a < n + 1 then st.kf.opIJ (st.samples.getD a []) (st.samples.getD n []) a n
        else if a = n ∧ b < n + 1 then st.kf.opIJ (st.samples.getD b []) (st.samples.getD n []) b n
        else (st.kernel.conservativeResize (n + 1) (n + 1) junk).e a b } with hkern
  have hgold : ∀ i < n, ∀ j < n, gramN st.kf st.samples i j = gramN st.kf xs i j := by
    intro i hi j hj
    unfold gramN
    rw [hs, getD_append_left hi, getD_append_left hj]
  have hke : ∀ j < n + 1, kern.e n j = gramN st.kf st.samples n j := by
    intro j hj
    simp only [hkern]
    by_cases h : j = n
    · subst h; rw [if_pos ⟨rfl, by omega⟩]; rfl
    · rw [if_neg (by simp [h]), if_pos ⟨trivial, hj⟩, hpd.symm n (by omega) j (by omega)]; rfl
  have hl0 : ∀ i < n, ∀ j < n, (st.L.conservativeResizeZero (n + 1) (n + 1)).e i j = st.L.e i j := by
    intro i hi j hj
    simp only [Mat.conservativeResizeZero]
    rw [if_pos ⟨by have := hold.rows; simp only at this; omega, by have := hold.cols; simp only at this; omega⟩]
  rw [incr_row n kern.e _ n (Nat.le_refl _)]
  set l0 := st.L.conservativeResizeZero (n + 1) (n + 1) with hl0def
  -- the finished factor
  have hfs : ∀ b < n, fsub l0.e (fun j => kern.e n j) b = fsub st.L.e (fun j => gramN st.kf st.samples n j) b := by
    apply fsub_congr
    · intro i hi j hj; exact hl0 i hi j (by omega)
    · intro i hi; exact hke i (by omega)
  set lfin : Mat := ({ l0 with e := fun a b => if a = n ∧ b < n then fsub l0.e (fun j => kern.e n j) b else l0.e a b } : Mat).set n n
      √(kern.e n n - ∑ q ∈ range n, (if n = n ∧ q < n then fsub l0.e (fun j => kern.e n j) q else l0.e n q)
        * (if n = n ∧ q < n then fsub l0.e (fun j => kern.e n j) q else l0.e n q)) with hlfin
  have hch0 : IsChol n st.L.e (gramN st.kf st.samples) := hold.chol.congr (fun _ _ _ _ => rfl) (fun i hi j hj => (hgold i hi j hj).symm)
  have hch : IsChol (n + 1) lfin.e (gramN st.kf st.samples) := by
    rw [hlen] at hpd
    refine hch0.extend hpd lfin.e ?_ ?_ ?_ ?_
    · intro i hi j hj
      simp only [hlfin, Mat.set]
      rw [if_neg (by omega), if_neg (by omega), hl0 i hi j hj]
    · intro i hi
      simp only [hlfin, Mat.set]
      rw [if_neg (by omega), if_neg (by omega)]
      simp only [hl0def, Mat.conservativeResizeZero]
      rw [if_neg]
      have := hold.cols; simp only at this; omega
    · intro j hj
      simp only [hlfin, Mat.set]
      rw [if_neg (by omega), if_pos ⟨trivial, hj⟩, hfs j hj]
    · simp only [hlfin, Mat.set, and_self, if_true]
      congr 1
      rw [hke n (by omega)]
      congr 1
      apply sum_congr rfl
      intro q hq
      rw [mem_range] at hq
      rw [if_pos ⟨trivial, hq⟩, hfs q hq]
  obtain ⟨st', h1, h2, h3⟩ := computeAlpha_ok (st := { st with kernel := kern, L := lfin }) (by
    simp [hlfin, Mat.set, hl0def, Mat.conservativeResizeZero, hom, hlen])
  rw [h1]
  refine ⟨{ st' with invUpdated := false }, rfl, ⟨?_, ?_, ?_⟩, ⟨h2.rows, h2.cols, h2.e⟩, rfl, ?_⟩
  · rw [h3]; rfl
  · rw [h3]; rfl
  · rw [h3]; exact hch
  · rw [h3]


/-! ### tracking -/

/-- The state agrees with the user's bookkeeping. -/
structure Tracks (E : GpEnv) (A : GpAbs) (st : GpState E) : Prop where
  samples : st.samples = A.xs
  empty : A.xs = [] → st.obs.rows = 0 ∧ A.k = true ∧ A.ys = []
  ne : A.xs ≠ [] → ∃ din dout, HasData st A.xs A.ys din dout
  reach : (st.dimIn = -1 ∨ KReach E.K E.KP st.dimIn.toNat st.kf) ∧ (st.dimOut = -1 ∨ MReach E.M st.dimOut.toNat st.mf)
  mok : A.xs ≠ [] → A.m = true → MeanSync st A.xs.length st.dimOut.toNat
  kok : A.k = true → KernSync st A.xs.length
  aok : A.xs ≠ [] → A.a = true → AlphaSol st A.xs.length st.dimOut.toNat
  iok : A.xs ≠ [] → A.i = true → st.invUpdated = true → InvSync st A.xs.length

theorem kok_of_reach (hE : LawfulEnv E) {d : Nat} {kf : BaseK E.K} (h : KReach E.K E.KP d kf) : KOK kf d := by
  refine ⟨hE.cov d kf h, ?_⟩
  induction h with
  | new => exact hE.noise
  | set p _ _ ih =>
    unfold BaseK.setHParams
    simp only
    split
    · exact (Real.exp_pos _).le
    · exact ih

theorem Tracks.kokd {A : GpAbs} {st : GpState E} (hE : LawfulEnv E) {din dout : Nat} (h : Tracks E A st) (hd : HasData st A.xs A.ys din dout) :
    KOK st.kf din := by
  rcases h.reach.1 with h1 | h1
  · rw [hd.dimIn] at h1; omega
  · rw [hd.dimIn] at h1; exact kok_of_reach hE (by simpa using h1)

theorem alphaSol_of {st : GpState E} {n dout : Nat} (hk : KernSync st n) (hm : MeanSync st n dout) (ha : AlphaSync st) : AlphaSol st n dout := by
  refine ⟨by rw [ha.rows, hm.rows], by rw [ha.cols, hm.cols], ?_⟩
  intro c hc i hi
  have e : ∀ j, st.alpha.e j c = bsub st.L.e n (fsub st.L.e fun i => st.obsMean.e i c) j := fun j => by rw [ha.e, hk.rows]
  simp only [e]
  rw [hk.chol.solve _ i hi, hm.e i hi c hc]

theorem invSync_of {st st' : GpState E} {n : Nat} (hk : KernSync st n) (h : computeInvKernel st = some st') :
    InvSync st' n ∧ st' = { st with invKernel := st'.invKernel, invUpdated := true } := by
  unfold computeInvKernel at h
  simp only at h
  by_cases hr : st.L.rows = st.obsMean.rows
  · rw [if_pos hr] at h
    cases h
    have hn : st.obsMean.rows = n := by rw [← hr, hk.rows]
    refine ⟨⟨hn, hn, ?_⟩, rfl⟩
    intro j _ i hi
    simp only [hn]
    exact hk.chol.solve _ i hi
  · rw [if_neg hr] at h; cases h

/-! ### operations -/

theorem adaptDims_eq (st : GpState E) (din dout : Nat) :
    adaptDims st din dout = { st with dimIn := din, dimOut := dout, kf := if st.dimIn = din then st.kf else BaseK.mk' E.KP din,
                                      mf := if st.dimOut = dout then st.mf else E.M.new dout } := by
  unfold adaptDims
  by_cases h1 : st.dimIn = din <;> by_cases h2 : st.dimOut = dout <;> simp [h1, h2]
  · rw [← h1, ← h2]

theorem resize_rows (o : Mat) (r c : Nat) (junk : Nat → Nat → ℝ) : (o.resize r c junk).rows = r := by
  unfold Mat.resize; split
  · rename_i hh; exact hh.1
  · rfl

theorem resize_cols (o : Mat) (r c : Nat) (junk : Nat → Nat → ℝ) : (o.resize r c junk).cols = c := by
  unfold Mat.resize; split
  · rename_i hh; exact hh.2
  · rfl

theorem compute_data (junk : Nat → Nat → ℝ) (st : GpState E) {xs ys : List (List ℝ)} {din dout : Nat} (h : DataSet xs ys din dout) (ck : Bool) :
    ∃ st1 : GpState E, HasData st1 xs ys din dout ∧
      st1.kf = (if st.dimIn = din then st.kf else BaseK.mk' E.KP din) ∧ st1.mf = (if st.dimOut = dout then st.mf else E.M.new dout) ∧
      st1 = { st with dimIn := din, dimOut := dout, kf := st1.kf, mf := st1.mf, samples := xs, obs := st1.obs, meanObs := st1.meanObs } ∧
      compute junk st xs ys ck = (computeObsMean junk st1).bind fun st => if ck then computeFullKernel junk st else some st := by
  have hne : xs.length ≠ 0 := by simpa using h.nonempty
  have hyne : ys ≠ [] := by intro e; have := h.same; rw [e] at this; exact hne this.symm
  have hx0 : (xs.headD []).length = din := by
    obtain ⟨x, xs', rfl⟩ := List.exists_cons_of_ne_nil h.nonempty
    exact h.inputs x (by simp)
  have hy0 : (ys.headD []).length = dout := by
    obtain ⟨y, ys', rfl⟩ := List.exists_cons_of_ne_nil hyne
    exact h.outputs y (by simp)
  unfold compute
  have hc1 : ¬ (xs.length = 0 ∨ ys.length = 0 ∨ xs.length ≠ ys.length) := by rw [h.same]; simp [hne]
  have hc2 : ¬ (ys.any (fun y => decide (y.length ≠ dout))) = true := by simpa using fun y hy => h.outputs y hy
  simp only [hx0, hy0]
  rw [if_neg hc1, if_neg hc2, adaptDims_eq]
  simp only [forN_rows]
  refine ⟨_, ⟨h, rfl, rfl, rfl, ?_, ?_, ?_, rfl⟩, rfl, rfl, rfl, rfl⟩
  · rw [← h.same]; exact resize_rows _ _ _ _
  · exact resize_cols _ _ _ _
  · intro i hi c _
    simp only [resize_rows, h.same, hi, if_true]

end Gp

end Limbo
