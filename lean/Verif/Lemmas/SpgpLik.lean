import Mathlib.LinearAlgebra.Matrix.SchurComplement
import Verif.Lemmas.Spgp

/-! The likelihood of the sparse Gaussian process: determinant and inverse of the covariance of the observations. -/

namespace Limbo

open Finset Matrix

namespace SpModel
variable {m n d : Nat} {S : SpModel m n d} (h : S.Good)
include h

theorem lam_unit : IsUnit (diagonal S.lam).det := by
  rw [det_diagonal]
  exact (prod_pos fun j _ => lam_pos h j).ne'.isUnit

theorem cov_posDef : S.cov.PosDef := by
  rw [cov, add_comm]
  refine PosDef.add_posSemidef (PosDef.diagonal fun j => lam_pos h j) ?_
  have := (Kuu_posDef h).inv.posSemidef.conjTranspose_mul_mul_same S.Kun
  simpa using this

theorem cov_unit : IsUnit S.cov.det := (cov_posDef h).det_pos.ne'.isUnit

theorem cov_symm : S.covᵀ = S.cov := by
  have := (cov_posDef h).isHermitian
  rwa [IsHermitian, conjTranspose_eq_transpose_of_trivial] at this

theorem QM_symm : S.QMᵀ = S.QM := by
  have := (QM_posDef h).isHermitian
  rwa [IsHermitian, conjTranspose_eq_transpose_of_trivial] at this

theorem cov_det : S.cov.det * S.Kuu.det = (∏ j, S.lam j) * S.QM.det := by
  have e : S.cov = diagonal S.lam + (S.Kunᵀ * S.Kuu⁻¹) * S.Kun := by rw [cov, add_comm]
  rw [e, det_add_mul _ _ (lam_unit h), det_diagonal, mul_assoc, ← det_mul]
  congr 2
  rw [QM, Matrix.add_mul, Matrix.one_mul]
  congr 1
  simp only [Matrix.mul_assoc]
  rw [nonsing_inv_mul _ (Kuu_unit h), Matrix.mul_one]

/-- Woodbury's identity. -/
theorem cov_inv : S.cov⁻¹ = (diagonal S.lam)⁻¹ - (diagonal S.lam)⁻¹ * S.Kunᵀ * S.QM⁻¹ * S.Kun * (diagonal S.lam)⁻¹ := by
  refine inv_eq_right_inv ?_
  have hl := lam_unit h
  set D := diagonal S.lam
  have e1 : S.cov * (D⁻¹ * S.Kunᵀ) = S.Kunᵀ * S.Kuu⁻¹ * S.QM := by
    rw [cov, QM, Matrix.add_mul, Matrix.mul_add]
    rw [← Matrix.mul_assoc D, mul_nonsing_inv _ hl, Matrix.one_mul, Matrix.mul_assoc _ _ S.Kuu, nonsing_inv_mul _ (Kuu_unit h), Matrix.mul_one, add_comm]
    simp only [Matrix.mul_assoc, D]
  have e2 : S.cov * (D⁻¹ * S.Kunᵀ * S.QM⁻¹ * S.Kun * D⁻¹) = S.Kunᵀ * S.Kuu⁻¹ * S.Kun * D⁻¹ := by
    calc _ = (S.cov * (D⁻¹ * S.Kunᵀ)) * S.QM⁻¹ * S.Kun * D⁻¹ := by simp only [Matrix.mul_assoc]
      _ = S.Kunᵀ * S.Kuu⁻¹ * (S.QM * S.QM⁻¹) * S.Kun * D⁻¹ := by rw [e1]; simp only [Matrix.mul_assoc]
      _ = _ := by rw [mul_nonsing_inv _ (QM_unit h), Matrix.mul_one]
  rw [Matrix.mul_sub, e2, cov, Matrix.add_mul, mul_nonsing_inv _ hl, add_sub_cancel_left]

end SpModel

namespace LikIn
variable {I : LikIn} (h : I.Ok)
include h

theorem S_det : (∏ i, I.Lm i i) ^ 2 * I.toSp.Kuu.det = I.sig ^ I.m * I.toSp.QM.det := by
  have := congrArg Matrix.det (S_eq h)
  rw [det_mul, det_mul, det_smul, Fintype.card_fin, det_transpose, ← (cholLm h).prod, det_mul, det_transpose] at this
  rw [← this, ← (cholLm h).det_eq, ← (cholL h).prod, det_mul, det_transpose]
  ring

theorem log_det_cov : Real.log I.toSp.cov.det = 2 * ∑ i, Real.log (I.Lm i i) + ((I.n : ℝ) - I.m) * Real.log I.sig + ∑ j, Real.log (I.ep j) := by
  have hg := good h
  have hk := (SpModel.Kuu_posDef hg).det_pos
  have hq := (SpModel.QM_posDef hg).det_pos
  have hc := (SpModel.cov_posDef hg).det_pos
  have hl : 0 < ∏ j, I.toSp.lam j := prod_pos fun j _ => SpModel.lam_pos hg j
  have hm : 0 < ∏ i, I.Lm i i := prod_pos fun i _ => (cholLm h).diag i
  have e1 := congrArg Real.log (SpModel.cov_det hg)
  rw [Real.log_mul hc.ne' hk.ne', Real.log_mul hl.ne' hq.ne'] at e1
  have e2 := congrArg Real.log (S_det h)
  rw [Real.log_mul (pow_pos hm 2).ne' hk.ne', Real.log_mul (pow_pos h.sig _).ne' hq.ne', Real.log_pow, Real.log_pow,
    Real.log_prod fun i _ => ((cholLm h).diag i).ne'] at e2
  rw [Real.log_prod fun j _ => (SpModel.lam_pos hg j).ne'] at e1
  have e3 : ∑ j, Real.log (I.toSp.lam j) = ∑ j, Real.log (I.ep j) + I.n * Real.log I.sig := by
    have : ∀ j : Fin I.n, Real.log (I.toSp.lam j) = Real.log (I.ep j) + Real.log I.sig := by
      intro j
      rw [← Real.log_mul (ep_pos h j).ne' h.sig.ne', ep_eq h, div_mul_cancel₀ _ h.sig.ne']
    rw [sum_congr rfl fun j _ => this j, sum_add_distrib, sum_const, card_univ, Fintype.card_fin, nsmul_eq_mul]
  push_cast at e2
  linarith

theorem quad_cov : I.y ⬝ᵥ I.y - I.bet ⬝ᵥ I.bet = I.sig * (I.Y ⬝ᵥ (I.toSp.cov⁻¹ *ᵥ I.Y)) := by
  have hg := good h
  have e : ∀ p q : Fin I.m → ℝ, (I.Lm⁻¹ *ᵥ p) ⬝ᵥ (I.Lm⁻¹ *ᵥ q) = p ⬝ᵥ (((I.Lm⁻¹)ᵀ * I.Lm⁻¹) *ᵥ q) := by
    intro p q
    rw [← mulVec_mulVec, dotProduct_mulVec p, vecMul_transpose]
  have hu := (cholL h).isUnit
  have e1 : I.y ⬝ᵥ I.y = I.sig * (I.Y ⬝ᵥ ((diagonal I.toSp.lam)⁻¹ *ᵥ I.Y)) := by
    rw [y_eq h, dotProduct_mulVec, ← mulVec_transpose, diagonal_transpose, mulVec_mulVec, E_sq h, smul_mulVec, smul_dotProduct, dotProduct_comm,
      smul_eq_mul]
  have e2 : I.bet ⬝ᵥ I.bet = I.sig * (I.Y ⬝ᵥ (((diagonal I.toSp.lam)⁻¹ * I.toSp.Kunᵀ * I.toSp.QM⁻¹ * I.toSp.Kun * (diagonal I.toSp.lam)⁻¹) *ᵥ I.Y)) := by
    have hd : ((diagonal I.toSp.lam)⁻¹)ᵀ = (diagonal I.toSp.lam)⁻¹ := by rw [SpModel.lam_inv hg, diagonal_transpose]
    rw [bet_eq h, e, Lminv h, Vy_eq h]
    set D := (diagonal I.toSp.lam)⁻¹
    have e3 : I.Y ⬝ᵥ ((D * I.toSp.Kunᵀ * I.toSp.QM⁻¹ * I.toSp.Kun * D) *ᵥ I.Y)
        = (I.toSp.Kun *ᵥ (D *ᵥ I.Y)) ⬝ᵥ (I.toSp.QM⁻¹ *ᵥ (I.toSp.Kun *ᵥ (D *ᵥ I.Y))) := by
      simp only [← mulVec_mulVec]
      rw [dotProduct_mulVec, ← mulVec_transpose, hd, dotProduct_mulVec, vecMul_transpose]
    rw [e3]
    generalize I.toSp.Kun *ᵥ (D *ᵥ I.Y) = w
    rw [smul_dotProduct, smul_mulVec, mulVec_smul, dotProduct_smul, dotProduct_smul, mulVec_mulVec,
      Matrix.mul_assoc, Matrix.mul_assoc, mul_nonsing_inv _ hu, Matrix.mul_one, ← mulVec_mulVec, dotProduct_mulVec, vecMul_transpose, mulVec_mulVec,
      mul_nonsing_inv _ hu, one_mulVec, smul_eq_mul, smul_eq_mul, smul_eq_mul, inv_mul_cancel_left₀ h.sig.ne']
  rw [e1, e2, SpModel.cov_inv hg, sub_mulVec, dotProduct_sub]
  ring

/-- The code's value is the negative log likelihood, but for the integer division of `n - m`. -/
theorem fw_eq : I.fw = I.toSp.nll I.Y + ((I.halfDiff : ℝ) - ((I.n : ℝ) - I.m) / 2) * Real.log I.sig := by
  rw [fw, SpModel.nll, quad_cov h, log_det_cov h]
  have := h.sig.ne'
  field_simp
  ring

end LikIn
end Limbo
