import Verif.Lemmas.GpTrack
import Mathlib.LinearAlgebra.Matrix.Block
import Mathlib.Analysis.SpecialFunctions.Log.Basic
import Mathlib.Logic.Equiv.Option
import Mathlib.Logic.Equiv.Fin.Basic

set_option linter.unusedSectionVars false

namespace Limbo

open Finset

/-! ## from number-indexed matrices to Mathlib matrices -/

/-- the leading block as a Mathlib matrix -/
def toM (n : Nat) (K : Nat → Nat → ℝ) : Matrix (Fin n) (Fin n) ℝ := Matrix.of fun i j => K i j

theorem toM_mulVec (n : Nat) (K : Nat → Nat → ℝ) (x : Nat → ℝ) (i : Fin n) :
    (toM n K).mulVec (fun j => x j) i = ∑ j ∈ range n, K i j * x j := by
  rw [Finset.sum_range]; rfl

theorem dot_range (n : Nat) (x y : Nat → ℝ) : (fun i : Fin n => x i) ⬝ᵥ (fun i : Fin n => y i) = ∑ i ∈ range n, x i * y i := by
  rw [Finset.sum_range]; rfl

theorem PD.mul_inv {n : Nat} {K : Nat → Nat → ℝ} (h : PD n K) : toM n K * (toM n K)⁻¹ = 1 := by
  obtain ⟨L, hL⟩ := exists_chol K n h
  have : toM n K * (Matrix.of fun i j : Fin n => bsub L n (fsub L fun a => if a = (j : Nat) then 1 else 0) i) = 1 := by
    ext i j
    rw [Matrix.mul_apply]
    have := hL.solve (fun a => if a = (j : Nat) then 1 else 0) i i.2
    rw [Finset.sum_range] at this
    simp only [toM, Matrix.of_apply]
    rw [this, Matrix.one_apply]
    simp [Fin.ext_iff]
  rw [Matrix.inv_eq_right_inv this]; exact this

theorem PD.isUnit_det {n : Nat} {K : Nat → Nat → ℝ} (h : PD n K) : IsUnit (toM n K).det := by
  rw [← Matrix.isUnit_iff_isUnit_det]
  exact IsUnit.of_mul_eq_one _ h.mul_inv

theorem PD.inv_mulVec {n : Nat} {K : Nat → Nat → ℝ} (h : PD n K) {x b : Nat → ℝ} (hx : Solves n K x b) :
    (toM n K)⁻¹.mulVec (fun i : Fin n => b i) = fun i : Fin n => x i := by
  have e : (fun i : Fin n => b i) = (toM n K).mulVec (fun i : Fin n => x i) := by
    funext i
    rw [toM_mulVec, hx i i.2]
  rw [e, Matrix.mulVec_mulVec, Matrix.nonsing_inv_mul _ h.isUnit_det, Matrix.one_mulVec]

/-- entries of the inverse -/
theorem PD.inv_entry {n : Nat} {K : Nat → Nat → ℝ} (h : PD n K) (j : Fin n) {x : Nat → ℝ} (hx : Solves n K x (fun i => if i = (j : Nat) then 1 else 0))
    (i : Fin n) : (toM n K)⁻¹ i j = x i := by
  have := congrFun (h.inv_mulVec hx) i
  rw [← this]
  rw [Matrix.mulVec, dotProduct, Finset.sum_eq_single j]
  · simp
  · intro b _ hb
    rw [if_neg (fun e => hb (Fin.ext e)), mul_zero]
  · intro hj; exact absurd (mem_univ j) hj

theorem IsChol.det {n : Nat} {L K : Nat → Nat → ℝ} (h : IsChol n L K) : (toM n K).det = ∏ i ∈ range n, L i i * L i i := by
  have e : toM n K = toM n L * (toM n L).transpose := by
    ext i j
    rw [Matrix.mul_apply]
    have := h.prod i i.2 j j.2
    rw [Finset.sum_range] at this
    simp only [toM, Matrix.of_apply, Matrix.transpose_apply]
    exact this.symm
  have hl : (toM n L).det = ∏ i : Fin n, L i i := by
    rw [Matrix.det_of_isLowerTriangular]
    · rfl
    · intro i j hij
      exact h.lower i i.2 j j.2 hij
  rw [e, Matrix.det_mul, Matrix.det_transpose, hl, ← Finset.prod_mul_distrib, Finset.prod_range]

theorem IsChol.logdet {n : Nat} {L K : Nat → Nat → ℝ} (h : IsChol n L K) :
    Real.log (toM n K).det = 2 * ∑ i ∈ range n, Real.log (L i i) := by
  rw [h.det, Real.log_prod, mul_sum]
  · apply sum_congr rfl
    intro i hi
    have := (h.diag i (mem_range.1 hi)).ne'
    rw [Real.log_mul this this]; ring
  · intro i hi
    have := (h.diag i (mem_range.1 hi)).ne'
    exact mul_ne_zero this this

theorem PD.det_pos {n : Nat} {K : Nat → Nat → ℝ} (h : PD n K) : 0 < (toM n K).det := by
  obtain ⟨L, hL⟩ := exists_chol K n h
  rw [hL.det]
  apply Finset.prod_pos
  intro i hi
  exact mul_pos (hL.diag i (mem_range.1 hi)) (hL.diag i (mem_range.1 hi))

/-- `|L⁻¹ b|² = bᵀ K⁻¹ b` -/
theorem IsChol.fsub_norm {n : Nat} {L K : Nat → Nat → ℝ} (h : IsChol n L K) (b : Nat → ℝ) :
    ∑ i ∈ range n, fsub L b i * fsub L b i = (fun i : Fin n => b i) ⬝ᵥ ((toM n K)⁻¹.mulVec fun i : Fin n => b i) := by
  rw [h.pd.inv_mulVec (h.solve b), dot_range n b]
  have : ∀ i ∈ range n, b i * bsub L n (fsub L b) i = ∑ k ∈ range n, fsub L b k * (L i k * bsub L n (fsub L b) i) := by
    intro i hi
    rw [← h.fsub_solves b i (mem_range.1 hi), sum_mul]
    exact sum_congr rfl fun k _ => by ring
  rw [sum_congr rfl this, sum_comm]
  apply sum_congr rfl
  intro k hk
  rw [← mul_sum, h.bsub_solves _ k (mem_range.1 hk)]

/-! ## permutations -/

theorem perm_equiv {α : Type} {l1 l2 : List α} (h : l1.Perm l2) :
    ∃ σ : Fin l2.length ≃ Fin l1.length, ∀ i : Fin l2.length, l2.get i = l1.get (σ i) := by
  induction h with
  | nil => exact ⟨Equiv.refl _, fun i => i.elim0⟩
  | @cons x l1 l2 _ ih =>
    obtain ⟨σ, hσ⟩ := ih
    refine ⟨((finSuccEquiv l2.length).trans (Equiv.optionCongr σ)).trans (finSuccEquiv l1.length).symm, ?_⟩
    intro i
    refine Fin.cases ?_ ?_ i
    · simp
    · intro j
      simpa using hσ j
  | @swap x y l =>
    refine ⟨Equiv.swap (⟨0, by simp⟩ : Fin (x :: y :: l).length) ⟨1, by simp⟩, ?_⟩
    intro i
    obtain ⟨i, hi⟩ := i
    match i, hi with
    | 0, hi => rw [Equiv.swap_apply_left]; rfl
    | 1, hi => rw [Equiv.swap_apply_right]; rfl
    | i + 2, hi =>
      rw [Equiv.swap_apply_of_ne_of_ne]
      · rfl
      · intro e; simp [Fin.ext_iff] at e
      · intro e; simp [Fin.ext_iff] at e
  | trans _ _ ih1 ih2 =>
    obtain ⟨σ1, h1⟩ := ih1
    obtain ⟨σ2, h2⟩ := ih2
    exact ⟨σ2.trans σ1, fun i => by rw [h2 i, h1 (σ2 i)]; rfl⟩

namespace Gp

variable {E : GpEnv}

/-- the observation mean a user expects: one entry per output -/
theorem meanObservation_eq {st : GpState E} {xs ys : List (List ℝ)} {din dout : Nat} (h : HasData st xs ys din dout) :
    meanObservation st = fun c => if c < dout then dataMeanOf ys c else 0 := by
  funext c
  unfold meanObservation
  rw [if_pos (by rw [h.samples]; exact List.length_pos_iff.2 h.data.nonempty), h.meanObs]
  unfold colMean
  rw [h.obsCols]
  by_cases hc : c < dout
  · rw [if_pos hc, if_pos hc, h.obsRows]
    unfold dataMeanOf
    rw [h.data.same]
    congr 1
    have : ∀ i ∈ range xs.length, st.obs.e i c = at' (ys.getD i []) c := fun i hi => h.obsE i (mem_range.1 hi) c hc
    rw [sum_congr rfl this, ← h.data.same]
    clear this
    rw [Finset.sum_range, ← List.sum_ofFn]
    congr 1
    apply List.ext_getElem
    · simp
    · intro i h1 h2
      simp only [List.length_ofFn] at h1
      simp [List.getD, h1]
  · rw [if_neg hc, if_neg hc]

theorem meanAt_eq {st : GpState E} {xs ys : List (List ℝ)} {din dout : Nat} (h : HasData st xs ys din dout) (v : List ℝ) (c : Nat) :
    meanAt st v c = meanFn st.mf ys dout v c := by
  unfold meanAt meanFn; rw [meanObservation_eq h]

theorem gramM_eq (kf : BaseK E.K) (xs : List (List ℝ)) : gramM (E.K.kernel kf.inner) (kf.noise + 1e-8) xs = toM xs.length (gramN kf xs) := by
  ext i j
  simp only [gramM, toM, gramN, Matrix.of_apply]
  rw [List.getD_eq_getElem _ _ i.2, List.getD_eq_getElem _ _ j.2]
  congr 1
  simp [Fin.ext_iff]

theorem kvec_eq (kf : BaseK E.K) (xs : List (List ℝ)) (v : List ℝ) :
    kvec (E.K.kernel kf.inner) xs v = fun i : Fin xs.length => E.K.kernel kf.inner (xs.getD i []) v := by
  funext i
  unfold kvec
  rw [List.getD_eq_getElem _ _ i.2]; rfl

theorem resid_eq {st : GpState E} {xs ys : List (List ℝ)} {din dout : Nat} (h : HasData st xs ys din dout) (c : Nat) (hc : c < dout) :
    resid (meanFn st.mf ys dout) xs ys c = fun i : Fin xs.length => st.obs.e i c - meanAt st (st.samples.getD i []) c := by
  funext i
  unfold resid
  rw [h.obsE i i.2 c hc, meanAt_eq h, h.samples, List.getD_eq_getElem xs _ i.2]; rfl

theorem op_eq (kf : BaseK E.K) (x y : List ℝ) : kf.op x y = E.K.kernel kf.inner x y := add_zero _

/-- mu is the posterior mean -/
theorem mu_spec (hE : LawfulEnv E) {A : GpAbs} {st : GpState E} (T : Tracks E A st) (hne : A.xs ≠ []) (ha : A.a = true) {din dout : Nat}
    (hd : DataSet A.xs A.ys din dout) (v : List ℝ) :
    mu st v = some (muK st v (computeK st v)) ∧
    ∀ c < dout, muK st v (computeK st v) c
      = postMean (E.K.kernel st.kf.inner) (meanFn st.mf A.ys dout) (st.kf.noise + 1e-8) A.xs A.ys v c := by
  obtain ⟨din', dout', hh⟩ := T.ne hne
  have heq : dout' = dout := by
    have h0 : A.ys ≠ [] := by
      intro e; have := hd.same; rw [e] at this
      exact hne (List.length_eq_zero_iff.1 this.symm)
    obtain ⟨y, hy⟩ := List.exists_mem_of_ne_nil _ h0
    rw [← hh.data.outputs y hy, ← hd.outputs y hy]
  subst heq
  have hs := T.aok hne ha
  have hdo : st.dimOut.toNat = dout' := by rw [hh.dimOut]; simp
  rw [hdo] at hs
  have hlen : st.samples.length = A.xs.length := by rw [T.samples]
  refine ⟨?_, ?_⟩
  · unfold mu
    rw [if_neg (by rw [hlen]; intro e; exact hne (List.length_eq_zero_iff.1 e)), if_pos]
    simp [muOk, hs.rows, hlen]
  · intro c hc
    have hpd := gram_pd (T.kokd hE hh) (xs := A.xs) hh.data.inputs
    unfold muK postMean
    rw [gramM_eq, resid_eq hh c hc, kvec_eq]
    have hsol := hs.sol c hc
    rw [show gramN st.kf st.samples = gramN st.kf A.xs by rw [T.samples]] at hsol
    rw [hpd.inv_mulVec hsol, dot_range A.xs.length (fun i => E.K.kernel st.kf.inner (A.xs.getD i []) v) (fun i => st.alpha.e i c), meanAt_eq hh, hlen]
    rw [add_comm]
    congr 1
    apply sum_congr rfl
    intro i _
    unfold computeK
    rw [op_eq, T.samples]

/-- sigma is the posterior variance -/
theorem sigma_spec (hE : LawfulEnv E) {A : GpAbs} {st : GpState E} (T : Tracks E A st) (hne : A.xs ≠ []) (hk : A.k = true) (v : List ℝ) :
    sigma st v = some (sigmaK st v (computeK st v) + st.kf.noise) ∧
    sigmaK st v (computeK st v)
      = (if postVar (E.K.kernel st.kf.inner) (st.kf.noise + 1e-8) A.xs v ≤ dblEps then 0
         else postVar (E.K.kernel st.kf.inner) (st.kf.noise + 1e-8) A.xs v) := by
  have hs := T.kok hk
  have hlen : st.samples.length = A.xs.length := by rw [T.samples]
  refine ⟨?_, ?_⟩
  · unfold sigma
    rw [if_neg (by rw [hlen]; intro e; exact hne (List.length_eq_zero_iff.1 e)), if_pos]
    simp [sigmaOk, hs.rows, hlen]
  · have : st.kf.op v v - ∑ i ∈ range st.samples.length, fsub st.L.e (computeK st v) i * fsub st.L.e (computeK st v) i
        = postVar (E.K.kernel st.kf.inner) (st.kf.noise + 1e-8) A.xs v := by
      unfold postVar
      rw [hlen, hs.chol.fsub_norm, op_eq, gramM_eq, kvec_eq, T.samples]
      congr 1
      have : (fun i : Fin A.xs.length => computeK st v i) = fun i : Fin A.xs.length => E.K.kernel st.kf.inner (A.xs.getD i []) v := by
        funext i
        unfold computeK
        rw [op_eq, T.samples]
      rw [this]
    unfold sigmaK
    simp only [this]

theorem z_le {n : Nat} (f : Nat → ℝ) : 0 ≤ ∑ i ∈ range n, f i * f i := sum_nonneg fun i _ => mul_self_nonneg _

theorem sigmaK_bounds (hE : LawfulEnv E) {A : GpAbs} {st : GpState E} (T : Tracks E A st) {din dout : Nat} (hh : HasData st A.xs A.ys din dout)
    (v : List ℝ) (hv : v.length = din) (k : Nat → ℝ) : 0 ≤ sigmaK st v k ∧ sigmaK st v k ≤ E.K.kernel st.kf.inner v v := by
  have hvv : 0 ≤ E.K.kernel st.kf.inner v v := by
    have := (T.kokd hE hh).cov.psd [v] (by simpa using hv) (fun _ => 1)
    simpa using this
  have hdbl : 0 ≤ dblEps := by unfold dblEps; positivity
  unfold sigmaK
  simp only [op_eq]
  have hz := z_le (n := st.samples.length) (fsub st.L.e k)
  split
  · exact ⟨le_refl _, hvv⟩
  · rename_i h
    rw [not_le] at h
    exact ⟨by linarith, by linarith⟩

end Gp

end Limbo
