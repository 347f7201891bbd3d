import Mathlib.LinearAlgebra.Matrix.PosDef
import Mathlib.LinearAlgebra.Matrix.Block
import Verif.Model.Spgp
import Verif.Spec.Spgp
import Verif.Spec.LinAlg
import Verif.Lemmas.Chol
import Verif.Lemmas.Psd

/-! Algebra of the sparse Gaussian process: from the factors the code computes to the textbook formulas. -/

namespace Limbo

open Finset Matrix

theorem natFn_fin {r c : Nat} (A : Matrix (Fin r) (Fin c) ℝ) (i : Fin r) (j : Fin c) : natFn A i j = A i j := by
  simp [natFn]

theorem matOf_fin {r c : Nat} (A : Matrix (Fin r) (Fin c) ℝ) : (matOf A).fin r c = A := by
  ext i j
  simp [Mat.fin, matOf, natFn_fin]

/-- A Cholesky factor. -/
structure CholM {m : Nat} (L A : Matrix (Fin m) (Fin m) ℝ) : Prop where
  diag : ∀ i, 0 < L i i
  lower : ∀ i j, i < j → L i j = 0
  prod : L * Lᵀ = A

theorem sum_range_fin (n : Nat) (f : Nat → ℝ) : ∑ i ∈ range n, f i = ∑ i : Fin n, f i := (Fin.sum_univ_eq_sum_range f n).symm

theorem pd_natFn {m : Nat} {A : Matrix (Fin m) (Fin m) ℝ} (h : A.PosDef) : PD m (natFn A) where
  symm i hi j hj := by
    have h1 := natFn_fin A ⟨i, hi⟩ ⟨j, hj⟩
    have h2 := natFn_fin A ⟨j, hj⟩ ⟨i, hi⟩
    simp only at h1 h2
    rw [h1, h2]
    have := h.isHermitian.apply ⟨i, hi⟩ ⟨j, hj⟩
    simpa using this.symm
  pos x hx := by
    obtain ⟨i, hi, hne⟩ := hx
    have := h.dotProduct_mulVec_pos (x := fun i : Fin m => x i) (fun e => hne (by simpa using congrFun e ⟨i, hi⟩))
    refine lt_of_lt_of_eq this ?_
    rw [sum_range_fin]
    simp only [dotProduct, mulVec, star_trivial, mul_sum, sum_range_fin, natFn_fin]
    exact sum_congr rfl fun i _ => sum_congr rfl fun j _ => by ring

theorem cholM_of {m : Nat} {A : Matrix (Fin m) (Fin m) ℝ} {llt : Nat → (Nat → Nat → ℝ) → Nat → Nat → ℝ} (hl : LltContract llt) (h : A.PosDef) :
    CholM (lltM llt A) A := by
  have hc := hl m _ (pd_natFn h)
  refine ⟨fun i => hc.diag i i.2, fun i j hij => hc.lower i i.2 j j.2 hij, ?_⟩
  ext i j
  rw [mul_apply, ← natFn_fin A i j, ← hc.prod i i.2 j j.2, sum_range_fin]
  rfl

theorem CholM.det_eq {m : Nat} {L A : Matrix (Fin m) (Fin m) ℝ} (h : CholM L A) : L.det = ∏ i, L i i :=
  det_of_lowerTriangular L (by intro i j hij; exact h.lower i j hij)

theorem CholM.det_pos {m : Nat} {L A : Matrix (Fin m) (Fin m) ℝ} (h : CholM L A) : 0 < L.det := by
  rw [h.det_eq]
  exact prod_pos fun i _ => h.diag i

theorem CholM.isUnit {m : Nat} {L A : Matrix (Fin m) (Fin m) ℝ} (h : CholM L A) : IsUnit L.det := isUnit_iff_ne_zero.mpr h.det_pos.ne'

theorem CholM.log_det {m : Nat} {L A : Matrix (Fin m) (Fin m) ℝ} (h : CholM L A) : Real.log A.det = 2 * ∑ i, Real.log (L i i) := by
  rw [← h.prod, det_mul, det_transpose, Real.log_mul h.det_pos.ne' h.det_pos.ne', h.det_eq, Real.log_prod fun i _ => (h.diag i).ne']
  ring

theorem CholM.triSolve_eq {m n : Nat} {L A : Matrix (Fin m) (Fin m) ℝ} (h : CholM L A) (B : Matrix (Fin m) (Fin n) ℝ) :
    triSolve L B = L⁻¹ * B := by
  have hm : L * triSolve L B = B := by
    ext i j
    rw [mul_apply]
    have hs := fsub_spec (natFn L) (fun a => natFn B a j) i (by rw [natFn_fin]; exact (h.diag i).ne')
    have hb : natFn B i j = B i j := natFn_fin B i j
    rw [hb] at hs
    rw [← hs]
    have e : ∀ k : Fin m, L i k * triSolve L B k j = natFn L i k * fsub (natFn L) (fun a => natFn B a j) k := by
      intro k; rw [natFn_fin]; rfl
    rw [sum_congr rfl fun k _ => e k, ← sum_range_fin m fun k => natFn L i k * fsub (natFn L) (fun a => natFn B a j) k]
    have hz : ∀ k ∈ range m, k ∉ range (i.1 + 1) → natFn L i k * fsub (natFn L) (fun a => natFn B a j) k = 0 := by
      intro k hk hk'
      simp only [mem_range] at hk hk'
      have := natFn_fin L i ⟨k, hk⟩
      simp only at this
      rw [this, h.lower i ⟨k, hk⟩ (by rw [Fin.lt_def]; simp only; omega), zero_mul]
    rw [← sum_subset (by intro k hk; simp only [mem_range] at hk ⊢; omega) hz]
  rw [← hm, ← Matrix.mul_assoc, nonsing_inv_mul _ h.isUnit, Matrix.one_mul, hm]

namespace LikIn

/-- Meaningful arguments. -/
structure Ok (I : LikIn) : Prop where
  llt : LltContract I.llt
  b : ∀ k, 0 < I.b k
  c : 0 < I.c
  sig : 0 < I.sig
  del : 0 < I.del

/-- The textbook model with the same points and parameters. -/
def toSp (I : LikIn) : SpModel I.m I.n I.d := ⟨I.xb, I.X, I.b, I.c, I.sig, I.del⟩

variable {I : LikIn} (h : I.Ok)
include h

theorem sqdist (x z : Fin I.d → ℝ) :
    -2 * ∑ k, (x k * √(I.b k)) * (z k * √(I.b k)) + ∑ k, (z k * √(I.b k)) * (z k * √(I.b k)) + ∑ k, (x k * √(I.b k)) * (x k * √(I.b k))
      = ∑ k, I.b k * (x k - z k) ^ 2 := by
  rw [mul_sum, ← sum_add_distrib, ← sum_add_distrib]
  refine sum_congr rfl fun k _ => ?_
  have : √(I.b k) * √(I.b k) = I.b k := Real.mul_self_sqrt (h.b k).le
  linear_combination (x k - z k) ^ 2 * this

theorem Q_eq : I.Q = I.toSp.Kuu := by
  ext i j
  simp only [Q, SpModel.Kuu, SpModel.k, toSp, of_apply, Matrix.add_apply, Matrix.smul_apply, one_apply, smul_eq_mul, mul_apply, transpose_apply, sxb]
  have := sqdist h (I.xb i) (I.xb j)
  rw [mul_comm (Real.exp _)]
  congr 2
  · congr 1
    rw [← this]
    ring
  · split_ifs <;> simp

theorem K0_eq : I.K0 = I.toSp.Kun := by
  ext i j
  simp only [K0, SpModel.Kun, SpModel.k, toSp, of_apply, mul_apply, transpose_apply, sxb, sx]
  rw [sqdist h (I.xb i) (I.X j), mul_comm (Real.exp _)]
  congr 2
  ring

end LikIn

namespace SpModel
variable {m n d : Nat} {S : SpModel m n d}

theorem k_self (x : Fin d → ℝ) : S.k x x = S.c := by simp [k]

theorem k_nnd {ι : Type} [Fintype ι] (hb : ∀ k, 0 < S.b k) (hc : 0 < S.c) (p : ι → Fin d → ℝ) : NND fun i j => S.k (p i) (p j) := by
  have := NND.smul (gauss_nnd (univ : Finset (Fin d)) (fun i k => √(S.b k) * p i k) (s := 1 / 2) (w := 0) (by norm_num)) hc.le
  convert this using 4 with i j
  simp only [k]
  congr 2
  rw [add_zero, neg_mul]
  congr 2
  unfold sqd
  refine sum_congr rfl fun a _ => ?_
  have : √(S.b a) * √(S.b a) = S.b a := Real.mul_self_sqrt (hb a).le
  linear_combination (-(p i a - p j a) ^ 2) * this

/-- Meaningful parameters. -/
structure Good (S : SpModel m n d) : Prop where
  b : ∀ k, 0 < S.b k
  c : 0 < S.c
  sig : 0 < S.sig
  jit : 0 < S.jit

theorem k_symm (x z : Fin d → ℝ) : S.k x z = S.k z x := by
  simp only [k]
  congr 3
  exact sum_congr rfl fun a _ => by ring

variable (h : S.Good)
include h

theorem Kuu_posDef : S.Kuu.PosDef := by
  refine PosDef.posSemidef_add ?_ ?_
  · exact NND.posSemidef (fun i j => k_symm _ _) (k_nnd h.b h.c S.U)
  · exact PosDef.smul PosDef.one h.jit

theorem Kuu_symm : S.Kuuᵀ = S.Kuu := by
  have := (Kuu_posDef h).isHermitian
  rwa [IsHermitian, conjTranspose_eq_transpose_of_trivial] at this

theorem Kuu_unit : IsUnit S.Kuu.det := (Kuu_posDef h).det_pos.ne'.isUnit

theorem schur (x : Fin d → ℝ) : S.ku x ⬝ᵥ (S.Kuu⁻¹ *ᵥ S.ku x) ≤ S.c := by
  set z := S.Kuu⁻¹ *ᵥ S.ku x with hz
  have hk : S.Kuu *ᵥ z = S.ku x := by rw [hz, mulVec_mulVec, mul_nonsing_inv _ (Kuu_unit h), one_mulVec]
  have h1 := k_nnd h.b h.c (fun o : Option (Fin m) => o.elim x S.U) fun o => o.elim 1 fun i => -z i
  unfold QF at h1
  simp only [Fintype.sum_option, Option.elim, k_self, one_mul, mul_one, neg_mul, mul_neg, sum_neg_distrib, neg_neg, sum_add_distrib] at h1
  have e1 : ∑ i, S.k x (S.U i) * z i = S.ku x ⬝ᵥ z := by
    simp only [dotProduct, ku]
    exact sum_congr rfl fun i _ => by rw [k_symm]
  have e2 : ∑ i, z i * S.k (S.U i) x = S.ku x ⬝ᵥ z := by
    simp only [dotProduct, ku]
    exact sum_congr rfl fun i _ => by ring
  have e3 : ∑ i, ∑ j, z i * S.k (S.U i) (S.U j) * z j = S.ku x ⬝ᵥ z - S.jit * ∑ i, z i ^ 2 := by
    rw [← hk]
    have : S.Kuu *ᵥ z = fun i => ∑ j, S.k (S.U i) (S.U j) * z j + S.jit * z i := by
      rw [Kuu, add_mulVec, smul_mulVec, one_mulVec]
      ext i
      simp [mulVec, dotProduct]
    rw [this]
    simp only [dotProduct, add_mul, sum_add_distrib, sum_mul, mul_sum]
    have e4 : ∑ i, S.jit * z i * z i = ∑ i, S.jit * z i ^ 2 := sum_congr rfl fun i _ => by ring
    rw [e4, add_sub_cancel_right]
    exact sum_congr rfl fun i _ => sum_congr rfl fun j _ => by ring
  rw [e1, e2, e3] at h1
  have : 0 ≤ S.jit * ∑ i, z i ^ 2 := mul_nonneg h.jit.le (sum_nonneg fun i _ => sq_nonneg _)
  linarith

theorem lam_ge (j : Fin n) : S.sig ≤ S.lam j := by
  have := schur h (S.X j)
  rw [lam, k_self]
  linarith

theorem lam_pos (j : Fin n) : 0 < S.lam j := h.sig.trans_le (lam_ge h j)

theorem lam_inv : (diagonal S.lam)⁻¹ = diagonal fun j => (S.lam j)⁻¹ := by
  refine inv_eq_right_inv ?_
  rw [diagonal_mul_diagonal, ← diagonal_one]
  congr 1
  ext j
  exact mul_inv_cancel₀ (lam_pos h j).ne'

theorem lowrank_psd : (S.Kun * (diagonal S.lam)⁻¹ * S.Kunᵀ).PosSemidef := by
  rw [lam_inv h]
  have : (diagonal fun j => (S.lam j)⁻¹).PosSemidef := PosSemidef.diagonal fun j => (inv_pos.mpr (lam_pos h j)).le
  simpa using this.mul_mul_conjTranspose_same S.Kun

theorem QM_posDef : S.QM.PosDef := PosDef.add_posSemidef (Kuu_posDef h) (lowrank_psd h)

theorem QM_unit : IsUnit S.QM.det := (QM_posDef h).det_pos.ne'.isUnit

end SpModel

namespace LikIn
variable {I : LikIn} (h : I.Ok)
include h

theorem good : I.toSp.Good := ⟨h.b, h.c, h.sig, h.del⟩

theorem cholL : CholM I.L I.toSp.Kuu := by
  have := cholM_of h.llt (SpModel.Kuu_posDef (good h))
  rwa [← Q_eq h] at this ⊢

theorem V0_eq : I.V0 = I.L⁻¹ * I.toSp.Kun := by rw [V0, (cholL h).triSolve_eq, K0_eq h]

theorem Linv : (I.L⁻¹)ᵀ * I.L⁻¹ = I.toSp.Kuu⁻¹ := by
  rw [← (cholL h).prod, Matrix.mul_inv_rev, transpose_nonsing_inv]

theorem lst_sq (v : Fin I.m → ℝ) : (I.L⁻¹ *ᵥ v) ⬝ᵥ (I.L⁻¹ *ᵥ v) = v ⬝ᵥ (I.toSp.Kuu⁻¹ *ᵥ v) := by
  rw [← Linv h, ← mulVec_mulVec, dotProduct_mulVec v, vecMul_transpose]

theorem ep_eq (j : Fin I.n) : I.ep j = I.toSp.lam j / I.sig := by
  have h1 : ∑ i, I.V0 i j ^ 2 = I.toSp.ku (I.X j) ⬝ᵥ (I.toSp.Kuu⁻¹ *ᵥ I.toSp.ku (I.X j)) := by
    rw [← lst_sq h]
    have : ∀ i, I.V0 i j = (I.L⁻¹ *ᵥ I.toSp.ku (I.X j)) i := by
      intro i
      rw [V0_eq h]
      rfl
    simp only [dotProduct, this, pow_two]
  have hs := h.sig.ne'
  rw [ep, h1, SpModel.lam, SpModel.k_self]
  simp only [toSp]
  field_simp
  ring

theorem ep_ge (j : Fin I.n) : 1 ≤ I.ep j := by
  rw [ep_eq h, le_div_iff₀ h.sig, one_mul]
  exact SpModel.lam_ge (good h) j

theorem ep_pos (j : Fin I.n) : 0 < I.ep j := one_pos.trans_le (ep_ge h j)

theorem sqrt_ep (j : Fin I.n) : √(I.ep j) * √(I.ep j) = I.ep j := Real.mul_self_sqrt (ep_pos h j).le

theorem V_eq : I.V = I.L⁻¹ * I.toSp.Kun * diagonal fun j => (√(I.ep j))⁻¹ := by
  ext i j
  rw [mul_diagonal, ← V0_eq h]
  simp [V, div_eq_mul_inv]

theorem y_eq : I.y = (diagonal fun j => (√(I.ep j))⁻¹) *ᵥ I.Y := by
  ext j
  rw [mulVec_diagonal]
  simp [y, div_eq_mul_inv, mul_comm]

theorem E_sq : (diagonal fun j => (√(I.ep j))⁻¹) * (diagonal fun j => (√(I.ep j))⁻¹) = I.sig • (diagonal I.toSp.lam)⁻¹ := by
  rw [SpModel.lam_inv (good h), diagonal_mul_diagonal]
  ext i j
  by_cases e : i = j
  · subst e
    simp only [diagonal_apply_eq, Matrix.smul_apply, smul_eq_mul]
    rw [← mul_inv, sqrt_ep h, ep_eq h, inv_div, div_eq_mul_inv]
  · simp [diagonal_apply_ne _ e]

/-- `S = σ² I + V Vᵀ`. -/
theorem S_eq : I.L * (I.sig • (1 : Matrix (Fin I.m) (Fin I.m) ℝ) + I.V * I.Vᵀ) * I.Lᵀ = I.sig • I.toSp.QM := by
  have hu := (cholL h).isUnit
  have hut : IsUnit (I.Lᵀ).det := by rwa [det_transpose]
  have h1 : I.L * (I.V * I.Vᵀ) * I.Lᵀ = I.sig • (I.toSp.Kun * (diagonal I.toSp.lam)⁻¹ * I.toSp.Kunᵀ) := by
    have e1 : I.L * I.V = I.toSp.Kun * diagonal fun j => (√(I.ep j))⁻¹ := by
      rw [V_eq h, ← Matrix.mul_assoc, ← Matrix.mul_assoc, mul_nonsing_inv _ hu, Matrix.one_mul]
    calc I.L * (I.V * I.Vᵀ) * I.Lᵀ = (I.L * I.V) * (I.L * I.V)ᵀ := by rw [transpose_mul]; simp only [Matrix.mul_assoc]
      _ = I.toSp.Kun * ((diagonal fun j => (√(I.ep j))⁻¹) * (diagonal fun j => (√(I.ep j))⁻¹)) * I.toSp.Kunᵀ := by
        rw [e1, transpose_mul, diagonal_transpose]; simp only [Matrix.mul_assoc]
      _ = _ := by rw [E_sq h]; simp
  rw [Matrix.mul_add, Matrix.add_mul, h1, SpModel.QM, smul_add]
  congr 1
  rw [Matrix.mul_smul, Matrix.mul_one, Matrix.smul_mul, (cholL h).prod]

theorem S_posDef : (I.sig • (1 : Matrix (Fin I.m) (Fin I.m) ℝ) + I.V * I.Vᵀ).PosDef := by
  refine PosDef.add_posSemidef (PosDef.smul PosDef.one h.sig) ?_
  simpa using posSemidef_self_mul_conjTranspose I.V

theorem cholLm : CholM I.Lm (I.sig • (1 : Matrix (Fin I.m) (Fin I.m) ℝ) + I.V * I.Vᵀ) := cholM_of h.llt (S_posDef h)

/-- `(Lm⁻¹)ᵀ Lm⁻¹ = σ⁻² Lᵀ Q_M⁻¹ L`. -/
theorem Lminv : (I.Lm⁻¹)ᵀ * I.Lm⁻¹ = I.sig⁻¹ • (I.Lᵀ * I.toSp.QM⁻¹ * I.L) := by
  have hu := (cholL h).isUnit
  have hut : IsUnit (I.Lᵀ).det := by rwa [det_transpose]
  have e : I.Lm * I.Lmᵀ = I.sig • (I.L⁻¹ * I.toSp.QM * (I.Lᵀ)⁻¹) := by
    rw [(cholLm h).prod]
    calc _ = I.L⁻¹ * (I.L * (I.sig • (1 : Matrix (Fin I.m) (Fin I.m) ℝ) + I.V * I.Vᵀ) * I.Lᵀ) * (I.Lᵀ)⁻¹ := by
            simp only [Matrix.mul_assoc]
            rw [mul_nonsing_inv _ hut, Matrix.mul_one, ← Matrix.mul_assoc, nonsing_inv_mul _ hu, Matrix.one_mul]
      _ = _ := by rw [S_eq h]; simp
  rw [transpose_nonsing_inv, ← Matrix.mul_inv_rev, e]
  refine inv_eq_right_inv ?_
  rw [Matrix.smul_mul, Matrix.mul_smul, smul_smul, mul_inv_cancel₀ h.sig.ne', one_smul]
  calc I.L⁻¹ * I.toSp.QM * (I.Lᵀ)⁻¹ * (I.Lᵀ * I.toSp.QM⁻¹ * I.L)
      = I.L⁻¹ * (I.toSp.QM * (((I.Lᵀ)⁻¹ * I.Lᵀ) * I.toSp.QM⁻¹)) * I.L := by simp only [Matrix.mul_assoc]
    _ = 1 := by rw [nonsing_inv_mul _ hut, Matrix.one_mul, mul_nonsing_inv _ (SpModel.QM_unit (good h)), Matrix.mul_one, nonsing_inv_mul _ hu]

theorem invLmV_eq : I.invLmV = I.Lm⁻¹ * I.V := (cholLm h).triSolve_eq _

/-- `V y = σ² L⁻¹ K_MN (Λ + σ² I)⁻¹ r`. -/
theorem Vy_eq : I.V *ᵥ I.y = I.sig • (I.L⁻¹ *ᵥ (I.toSp.Kun *ᵥ ((diagonal I.toSp.lam)⁻¹ *ᵥ I.Y))) := by
  rw [V_eq h, y_eq h, mulVec_mulVec, Matrix.mul_assoc, E_sq h, Matrix.mul_smul, smul_mulVec, mulVec_mulVec, mulVec_mulVec, Matrix.mul_assoc]

theorem bet_eq : I.bet = I.Lm⁻¹ *ᵥ (I.V *ᵥ I.y) := by rw [bet, invLmV_eq h, mulVec_mulVec]

/-- The product with the weights as the code computes it. -/
theorem pred_vec (κ : Fin I.m → ℝ) :
    I.bet ⬝ᵥ (I.Lm⁻¹ *ᵥ (I.L⁻¹ *ᵥ κ)) = κ ⬝ᵥ (I.toSp.QM⁻¹ *ᵥ (I.toSp.Kun *ᵥ ((diagonal I.toSp.lam)⁻¹ *ᵥ I.Y))) := by
  have hu := (cholL h).isUnit
  have hut : IsUnit (I.Lᵀ).det := by rwa [det_transpose]
  have e : ∀ p q : Fin I.m → ℝ, (I.Lm⁻¹ *ᵥ p) ⬝ᵥ (I.Lm⁻¹ *ᵥ q) = p ⬝ᵥ (((I.Lm⁻¹)ᵀ * I.Lm⁻¹) *ᵥ q) := by
    intro p q
    rw [← mulVec_mulVec, dotProduct_mulVec p, vecMul_transpose]
  rw [dotProduct_comm κ, bet_eq h, e, Lminv h, Vy_eq h]
  generalize I.toSp.Kun *ᵥ ((diagonal I.toSp.lam)⁻¹ *ᵥ I.Y) = w
  rw [smul_dotProduct, smul_mulVec, dotProduct_smul, smul_smul, mul_inv_cancel₀ h.sig.ne', one_smul, mulVec_mulVec,
    Matrix.mul_assoc, Matrix.mul_assoc, mul_nonsing_inv _ hu, Matrix.mul_one]
  rw [← mulVec_mulVec, dotProduct_mulVec, vecMul_transpose, mulVec_mulVec, mul_nonsing_inv _ hu, one_mulVec, dotProduct_mulVec,
    ← mulVec_transpose]
  have : (I.toSp.QM⁻¹)ᵀ = I.toSp.QM⁻¹ := by
    have := (SpModel.QM_posDef (good h)).isHermitian
    rw [IsHermitian, conjTranspose_eq_transpose_of_trivial] at this
    rw [transpose_nonsing_inv, this]
  rw [this]

/-- The predictive mean as the code computes it. -/
theorem pred_mean (v : Fin I.d → ℝ) :
    I.bet ⬝ᵥ (I.Lm⁻¹ *ᵥ (I.L⁻¹ *ᵥ I.toSp.ku v)) = I.toSp.mean I.Y v := pred_vec h _

/-- The predictive variance as the code computes it. -/
theorem pred_var (v : Fin I.d → ℝ) :
    I.c - (I.L⁻¹ *ᵥ I.toSp.ku v) ⬝ᵥ (I.L⁻¹ *ᵥ I.toSp.ku v)
      + I.sig * ((I.Lm⁻¹ *ᵥ (I.L⁻¹ *ᵥ I.toSp.ku v)) ⬝ᵥ (I.Lm⁻¹ *ᵥ (I.L⁻¹ *ᵥ I.toSp.ku v))) + I.sig = I.toSp.var v := by
  have hu := (cholL h).isUnit
  have e : ∀ p q : Fin I.m → ℝ, (I.Lm⁻¹ *ᵥ p) ⬝ᵥ (I.Lm⁻¹ *ᵥ q) = p ⬝ᵥ (((I.Lm⁻¹)ᵀ * I.Lm⁻¹) *ᵥ q) := by
    intro p q
    rw [← mulVec_mulVec, dotProduct_mulVec p, vecMul_transpose]
  rw [e, Lminv h, lst_sq h, smul_mulVec, dotProduct_smul, smul_eq_mul, ← mul_assoc, mul_inv_cancel₀ h.sig.ne', one_mul, mulVec_mulVec,
    Matrix.mul_assoc, Matrix.mul_assoc, mul_nonsing_inv _ hu, Matrix.mul_one, ← mulVec_mulVec, dotProduct_mulVec _ I.Lᵀ, vecMul_transpose,
    mulVec_mulVec, mul_nonsing_inv _ hu, one_mulVec, SpModel.var, SpModel.k_self, sub_mulVec, dotProduct_sub]
  simp only [toSp]
  ring

end LikIn

end Limbo
