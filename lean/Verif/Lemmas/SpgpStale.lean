import Verif.Lemmas.SpgpRun

/-! The sparse Gaussian process after `optimize_hyperparams`: new hyper-parameters, old factors. -/

namespace Limbo

open Finset Matrix

namespace Spgp
variable {E : SpEnv}

theorem optimizeHp_keeps {perm : Nat → Nat} {st st' : SpState E} (h : optimizeHp perm { st with optimizeInit := true } = .ok st') :
    st'.L = st.L ∧ st'.Lm = st.Lm ∧ st'.bet = st.bet := by
  unfold optimizeHp at h
  simp only [if_true] at h
  obtain ⟨w0, hw0, h⟩ := SpRes.bind_ok h
  obtain ⟨st1, h1, h⟩ := SpRes.bind_ok h
  cases h1
  obtain ⟨w, hw, h⟩ := SpRes.bind_ok h
  simp only at h
  split at h
  · cases h
  · cases h
    exact ⟨rfl, rfl, rfl⟩

theorem predVals_vec {I : LikIn} (hok : I.Ok) {q : Nat} (κ : Fin q → Fin I.m → ℝ) (c sig noise : ℝ) :
    (predVals ((matOf I.L).fin I.m I.m) ((matOf I.Lm).fin I.m I.m) ((matOf (Matrix.of fun i (_ : Fin 1) => I.bet i)).fin I.m 1)
      (Matrix.of fun i j => κ j i) c sig noise).1
      = Matrix.of fun j _ => κ j ⬝ᵥ (I.toSp.QM⁻¹ *ᵥ (I.toSp.Kun *ᵥ ((diagonal I.toSp.lam)⁻¹ *ᵥ I.Y))) := by
  have hlst : triSolve I.L (Matrix.of fun i j => κ j i) = Matrix.of fun i j => (I.L⁻¹ *ᵥ κ j) i := by
    rw [(LikIn.cholL hok).triSolve_eq]
    ext i j
    rfl
  have hlmst : triSolve I.Lm (Matrix.of fun i j => (I.L⁻¹ *ᵥ κ j) i) = Matrix.of fun i j => (I.Lm⁻¹ *ᵥ (I.L⁻¹ *ᵥ κ j)) i := by
    rw [(LikIn.cholLm hok).triSolve_eq]
    ext i j
    rfl
  simp only [predVals]
  rw [matOf_fin, matOf_fin, matOf_fin, hlst, hlmst]
  ext j c
  rw [of_apply, ← LikIn.pred_vec hok]
  rfl

/-- The mean that `query` returns when the factors are those of `w0` and the hyper-parameters those of `w1`. -/
theorem query_stale {st : SpState E} {m n d : Nat} {X : Matrix (Fin n) (Fin d) ℝ} {r : Fin n → ℝ} {δ : ℝ} {w0 w1 : List ℝ} (hl : LltContract E.llt)
    (hδ : 0 < δ) (f1 : st.pseudo = matOf (vecIn E.llt m X r δ w1).xb) (f2 : st.b = (List.finRange d).map (vecIn E.llt m X r δ w1).b)
    (f3 : st.c = (vecIn E.llt m X r δ w1).c) (f5 : st.L = matOf (vecIn E.llt m X r δ w0).L) (f6 : st.Lm = matOf (vecIn E.llt m X r δ w0).Lm)
    (f7 : st.bet = matOf (Matrix.of fun i (_ : Fin 1) => (vecIn E.llt m X r δ w0).bet i)) (hs : st.samples.rows ≠ 0) (ho : st.dimOut = 1) {v : List ℝ}
    (hv : v.length = d) :
    ∃ σ2, query st v = .ok (Spgp.meanAt st v 0 + (SpModel.ofVec m X δ w1).ku (fun a => v.getD a 0)
      ⬝ᵥ ((SpModel.ofVec m X δ w0).QM⁻¹ *ᵥ ((SpModel.ofVec m X δ w0).Kun *ᵥ ((diagonal (SpModel.ofVec m X δ w0).lam)⁻¹ *ᵥ r))), σ2) := by
  have hok0 := vecIn_ok hl m X r hδ w0
  have hok1 := vecIn_ok hl m X r hδ w1
  obtain ⟨m', dimIn, dimOut, del, samples, obs, obsZm, obsMean, mf, kf, pseudo, b, c, sig, Lm, bet, L, oi, op, wi⟩ := st
  simp only at f1 f2 f3 f5 f6 f7 hs ho
  subst f1 f2 f3 f5 f6 f7 ho
  have hrow : rowL (rowMat v) 0 = v := rowL_eq rfl fun j _ => rfl
  unfold query predict
  simp only [if_neg hs]
  rw [kernelMatrix_eq (vecIn E.llt m X r δ w1).toSp hok1.b rfl rfl (p1 := matOf (vecIn E.llt m X r δ w1).xb) (p2 := rowMat v) rfl hv]
  have hk : (Matrix.of fun (i : Fin m) (j : Fin (rowMat v).rows) => (vecIn E.llt m X r δ w1).toSp.k (fun a => (matOf (vecIn E.llt m X r δ w1).xb).e i a) fun a => (rowMat v).e j a)
      = Matrix.of fun (i : Fin m) (_ : Fin (rowMat v).rows) => (SpModel.ofVec m X δ w1).ku (fun a => v.getD a 0) i := by
    ext i j
    have : (fun a : Fin d => (matOf (vecIn E.llt m X r δ w1).xb).e i a) = (vecIn E.llt m X r δ w1).xb i := by
      funext a
      exact natFn_fin _ _ _
    exact congrArg₂ (vecIn E.llt m X r δ w1).toSp.k this rfl
  have hp : (predVals ((matOf (vecIn E.llt m X r δ w0).L).fin m m) ((matOf (vecIn E.llt m X r δ w0).Lm).fin m m)
      ((matOf (Matrix.of fun i (_ : Fin 1) => (vecIn E.llt m X r δ w0).bet i)).fin m 1)
      (Matrix.of fun (i : Fin m) (_ : Fin (rowMat v).rows) => (SpModel.ofVec m X δ w1).ku (fun a => v.getD a 0) i) (vecIn E.llt m X r δ w1).c sig (if op then sig else 0)).1 ⟨0, Nat.one_pos⟩ 0
      = (SpModel.ofVec m X δ w1).ku (fun a => v.getD a 0)
        ⬝ᵥ ((SpModel.ofVec m X δ w0).QM⁻¹ *ᵥ ((SpModel.ofVec m X δ w0).Kun *ᵥ ((diagonal (SpModel.ofVec m X δ w0).lam)⁻¹ *ᵥ r))) := by
    generalize (SpModel.ofVec m X δ w1).ku (fun a => v.getD a 0) = κ
    exact congrFun (congrFun (predVals_vec hok0 (q := (rowMat v).rows) (fun _ => κ) _ _ _) ⟨0, Nat.one_pos⟩) 0
  rw [← hk] at hp
  have hif : (matOf (vecIn E.llt m X r δ w0).L).rows = (matOf (vecIn E.llt m X r δ w1).xb).rows ∧ (matOf (vecIn E.llt m X r δ w0).Lm).rows = (matOf (vecIn E.llt m X r δ w1).xb).rows
      ∧ (matOf (Matrix.of fun i (_ : Fin 1) => (vecIn E.llt m X r δ w0).bet i)).rows = (matOf (vecIn E.llt m X r δ w1).xb).rows
      ∧ ((matOf (Matrix.of fun i (_ : Fin 1) => (vecIn E.llt m X r δ w0).bet i)).cols : Int) = 1 := ⟨rfl, rfl, rfl, rfl⟩
  refine ⟨_, SpRes.bind_mk (SpRes.bind_mk rfl (if_pos hif)) ((if_pos rfl).trans (congrArg Except.ok (Prod.ext ?_ rfl)))⟩
  change Spgp.meanAt _ (rowL (rowMat v) 0) 0 + natFn _ 0 0 = _
  rw [hrow]
  exact congrArg (_ + ·) ((natFn_fin _ ⟨0, Nat.one_pos⟩ (0 : Fin 1)).trans hp)

end Spgp
end Limbo

namespace Limbo.SpModel

open Finset Matrix

/-- One pseudo-input at an input: that input weighs more than one elsewhere. -/
theorem ratio_lt {S : SpModel 1 2 1} (h : S.Good) {i j : Fin 2} (hi : S.X i 0 = S.U 0 0) (hj : S.X j 0 ≠ S.U 0 0) :
    S.Kun 0 j * (S.lam j)⁻¹ < S.Kun 0 i * (S.lam i)⁻¹ := by
  have hXi : S.X i = S.U 0 := by
    funext a
    fin_cases a
    exact hi
  have ki : S.Kun 0 i = S.c := by
    rw [Kun, of_apply, hXi, k_self]
  have kj0 : 0 < S.Kun 0 j := mul_pos h.c (Real.exp_pos _)
  have kj : S.Kun 0 j < S.c := by
    rw [Kun, of_apply, k]
    have hneg : -(1 / 2) * ∑ a : Fin 1, S.b a * (S.U 0 a - S.X j a) ^ 2 < 0 := by
      rw [Fin.sum_univ_one]
      have : 0 < (S.U 0 0 - S.X j 0) ^ 2 := by
        have : S.U 0 0 - S.X j 0 ≠ 0 := sub_ne_zero.mpr (Ne.symm hj)
        positivity
      have := mul_pos (h.b 0) this
      linarith
    have := Real.exp_lt_exp.mpr hneg
    rw [Real.exp_zero] at this
    have := mul_lt_mul_of_pos_left this h.c
    linarith
  have lpos : ∀ l, 0 < S.lam l := fun l => lt_of_lt_of_le h.sig (lam_ge h l)
  have lam_eq : ∀ l, S.lam l = S.c - S.Kun 0 l * (S.Kuu⁻¹ 0 0 * S.Kun 0 l) + S.sig := by
    intro l
    rw [lam, k_self]
    simp only [dotProduct, mulVec, Fin.sum_univ_one, Fin.isValue, ku, Kun, of_apply]
  have hinv : 0 ≤ S.Kuu⁻¹ 0 0 := ((Kuu_posDef h).inv.diag_pos).le
  have hlam : S.lam i ≤ S.lam j := by
    rw [lam_eq, lam_eq, ki]
    have : S.Kun 0 j * S.Kun 0 j ≤ S.c * S.c := mul_le_mul kj.le kj.le kj0.le h.c.le
    have := mul_le_mul_of_nonneg_left this hinv
    linarith
  rw [ki, ← div_eq_mul_inv, ← div_eq_mul_inv]
  calc S.Kun 0 j / S.lam j < S.c / S.lam j := div_lt_div_of_pos_right kj (lpos j)
    _ ≤ S.c / S.lam i := div_le_div_of_nonneg_left h.c.le (lpos i) hlam

/-- The weight of one pseudo-input at one of two inputs has the sign of the residual there. -/
theorem weight_sign {S : SpModel 1 2 1} (h : S.Good) {r : Fin 2 → ℝ} (κ : Fin 1 → ℝ) (hκ : 0 < κ 0) {a : ℝ} (h0 : r 0 = -a) (h1 : r 1 = a) (ha : 0 < a) :
    (S.X 0 0 = S.U 0 0 → S.X 1 0 ≠ S.U 0 0 → κ ⬝ᵥ (S.QM⁻¹ *ᵥ (S.Kun *ᵥ ((diagonal S.lam)⁻¹ *ᵥ r))) < 0)
    ∧ (S.X 1 0 = S.U 0 0 → S.X 0 0 ≠ S.U 0 0 → 0 < κ ⬝ᵥ (S.QM⁻¹ *ᵥ (S.Kun *ᵥ ((diagonal S.lam)⁻¹ *ᵥ r)))) := by
  have lpos : ∀ l, 0 < S.lam l := fun l => lt_of_lt_of_le h.sig (lam_ge h l)
  have hq : 0 < S.QM⁻¹ 0 0 := (QM_posDef h).inv.diag_pos
  have hd : (diagonal S.lam)⁻¹ = diagonal fun l => (S.lam l)⁻¹ := by
    refine inv_eq_right_inv ?_
    rw [diagonal_mul_diagonal]
    have : (fun i => S.lam i * (S.lam i)⁻¹) = fun _ => (1 : ℝ) := funext fun i => mul_inv_cancel₀ (lpos i).ne'
    rw [this, diagonal_one]
  have e : κ ⬝ᵥ (S.QM⁻¹ *ᵥ (S.Kun *ᵥ ((diagonal S.lam)⁻¹ *ᵥ r)))
      = κ 0 * S.QM⁻¹ 0 0 * (a * (S.Kun 0 1 * (S.lam 1)⁻¹ - S.Kun 0 0 * (S.lam 0)⁻¹)) := by
    rw [hd]
    have hv : ∀ l, (diagonal (fun l => (S.lam l)⁻¹) *ᵥ r) l = (S.lam l)⁻¹ * r l := fun l => mulVec_diagonal _ _ _
    have hk : (S.Kun *ᵥ (diagonal (fun l => (S.lam l)⁻¹) *ᵥ r)) 0 = S.Kun 0 0 * ((S.lam 0)⁻¹ * r 0) + S.Kun 0 1 * ((S.lam 1)⁻¹ * r 1) := by
      rw [mulVec, dotProduct, Fin.sum_univ_two, hv, hv]
    have hm : (S.QM⁻¹ *ᵥ (S.Kun *ᵥ (diagonal (fun l => (S.lam l)⁻¹) *ᵥ r))) 0
        = S.QM⁻¹ 0 0 * (S.Kun *ᵥ (diagonal (fun l => (S.lam l)⁻¹) *ᵥ r)) 0 := by
      rw [mulVec, dotProduct, Fin.sum_univ_one]
    rw [dotProduct, Fin.sum_univ_one, hm, hk, h0, h1]
    ring
  have hp := mul_pos hκ hq
  constructor
  · intro a0 a1
    rw [e]
    have := ratio_lt h a0 a1
    exact mul_neg_of_pos_of_neg hp (mul_neg_of_pos_of_neg ha (by linarith))
  · intro a1 a0
    rw [e]
    have := ratio_lt h a1 a0
    exact mul_pos hp (mul_pos ha (by linarith))

end Limbo.SpModel
