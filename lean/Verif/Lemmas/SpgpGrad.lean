import Verif.Lemmas.SpgpLik
import Verif.Lemmas.MatDeriv

/-! The gradient of the likelihood of the sparse Gaussian process. -/

namespace Limbo

open Finset Matrix

/-- Every entry of a rectangular matrix has the derivative given by `D` at `t`. -/
def RDeriv {ι κ : Type} (K : ℝ → Matrix ι κ ℝ) (D : Matrix ι κ ℝ) (t : ℝ) : Prop := ∀ i j, HasDerivAt (fun t => K t i j) (D i j) t

theorem RDeriv.mul {ι κ μ : Type} [Fintype κ] {A : ℝ → Matrix ι κ ℝ} {B : ℝ → Matrix κ μ ℝ} {DA : Matrix ι κ ℝ} {DB : Matrix κ μ ℝ} {t : ℝ}
    (ha : RDeriv A DA t) (hb : RDeriv B DB t) : RDeriv (fun t => A t * B t) (DA * B t + A t * DB) t := by
  intro i j
  have := HasDerivAt.fun_sum (u := univ) fun k _ => (ha i k).mul (hb k j)
  refine this.congr_deriv ?_
  rw [Matrix.add_apply, mul_apply, mul_apply, ← sum_add_distrib]

theorem RDeriv.transpose {ι κ : Type} {A : ℝ → Matrix ι κ ℝ} {D : Matrix ι κ ℝ} {t : ℝ} (h : RDeriv A D t) : RDeriv (fun t => (A t)ᵀ) Dᵀ t :=
  fun i j => h j i

namespace SpModel
variable {m n d : Nat}

/-- `K_M⁻¹ K_MN`. -/
noncomputable def proj (S : SpModel m n d) : Matrix (Fin m) (Fin n) ℝ := S.Kuu⁻¹ * S.Kun

/-- `½ (Σ⁻¹ - α αᵀ)`, the derivative of the negative log likelihood by the covariance. -/
noncomputable def gmat (S : SpModel m n d) (r : Fin n → ℝ) : Matrix (Fin n) (Fin n) ℝ :=
  (1 / 2 : ℝ) • (S.cov⁻¹ - vecMulVec (S.cov⁻¹ *ᵥ r) (S.cov⁻¹ *ᵥ r))

/-- The same without its diagonal. -/
noncomputable def goff (S : SpModel m n d) (r : Fin n → ℝ) : Matrix (Fin n) (Fin n) ℝ := S.gmat r - diagonal fun j => S.gmat r j j

theorem cov_apply (S : SpModel m n d) (i j : Fin n) : S.cov i j = (S.Kunᵀ * S.Kuu⁻¹ * S.Kun) i j
    + if i = j then (S.c + S.sig) - (S.Kunᵀ * S.Kuu⁻¹ * S.Kun) i i else 0 := by
  rw [cov, Matrix.add_apply]
  congr 1
  by_cases e : i = j
  · subst e
    rw [diagonal_apply_eq, if_pos rfl, lam, k_self, Matrix.mul_assoc, mul_apply']
    have : S.ku (S.X i) ⬝ᵥ (S.Kuu⁻¹ *ᵥ S.ku (S.X i)) = (fun a => S.Kunᵀ i a) ⬝ᵥ fun a => (S.Kuu⁻¹ * S.Kun) a i := rfl
    rw [this]
    ring
  · rw [diagonal_apply_ne _ e, if_neg e]

theorem nll_deriv {S : ℝ → SpModel m n d} {t : ℝ} (hg : (S t).Good) {dQ : Matrix (Fin m) (Fin m) ℝ} {dK : Matrix (Fin m) (Fin n) ℝ} {dv : ℝ}
    (hQ : MDeriv (fun t => (S t).Kuu) dQ t) (hK : RDeriv (fun t => (S t).Kun) dK t) (hv : HasDerivAt (fun t => (S t).c + (S t).sig) dv t)
    (r : Fin n → ℝ) :
    HasDerivAt (fun t => (S t).nll r)
      (2 * ((S t).proj * (S t).goff r * dKᵀ).trace - ((S t).proj * (S t).goff r * (S t).projᵀ * dQ).trace + dv * ((S t).gmat r).trace) t := by
  have hks := Kuu_symm hg
  have hki : ((S t).Kuu⁻¹)ᵀ = (S t).Kuu⁻¹ := by rw [transpose_nonsing_inv, hks]
  have hci : ((S t).cov⁻¹)ᵀ = (S t).cov⁻¹ := by rw [transpose_nonsing_inv, cov_symm hg]
  set P := (S t).proj with hP
  set W : Matrix (Fin n) (Fin n) ℝ := dKᵀ * P + Pᵀ * dK - Pᵀ * dQ * P with hW
  have hQi : RDeriv (fun t => ((S t).Kuu)⁻¹) (-((S t).Kuu⁻¹ * dQ * (S t).Kuu⁻¹)) t := hQ.inv (Kuu_posDef hg).det_pos.ne'
  have hW0 : RDeriv (fun t => (S t).Kunᵀ * (S t).Kuu⁻¹ * (S t).Kun) W t := by
    have := (hK.transpose.mul hQi).mul hK
    have e : (dKᵀ * (S t).Kuu⁻¹ + (S t).Kunᵀ * -((S t).Kuu⁻¹ * dQ * (S t).Kuu⁻¹)) * (S t).Kun + (S t).Kunᵀ * (S t).Kuu⁻¹ * dK = W := by
      rw [hW, hP, proj, transpose_mul, hki, Matrix.add_mul, Matrix.mul_neg, Matrix.neg_mul]
      simp only [Matrix.mul_assoc]
      abel
    rwa [e] at this
  set D : Matrix (Fin n) (Fin n) ℝ := W + diagonal fun j => dv - W j j with hD
  have hcov : MDeriv (fun t => (S t).cov) D t := by
    intro i j
    have h1 : (fun t => (S t).cov i j) = fun t => ((S t).Kunᵀ * (S t).Kuu⁻¹ * (S t).Kun) i j
        + if i = j then ((S t).c + (S t).sig) - ((S t).Kunᵀ * (S t).Kuu⁻¹ * (S t).Kun) i i else 0 := by
      funext t
      exact cov_apply (S t) i j
    rw [h1, hD, Matrix.add_apply]
    refine (hW0 i j).add ?_
    by_cases e : i = j
    · subst e
      simp only [if_true, diagonal_apply_eq]
      exact hv.sub (hW0 i i)
    · simp only [if_neg e, diagonal_apply_ne _ e]
      exact hasDerivAt_const _ _
  have h0 := (cov_posDef hg).det_pos.ne'
  have hd := (((hcov.quad h0 (cov_symm hg) r).const_mul (1 / 2)).add ((hcov.logdet h0).const_mul (1 / 2))).add
    (hasDerivAt_const t ((n : ℝ) / 2 * Real.log (2 * Real.pi)))
  refine hd.congr_deriv ?_
  set G := (S t).gmat r with hG
  have hGs : Gᵀ = G := by
    rw [hG, gmat, transpose_smul, transpose_sub, hci]
    congr 2
    ext i j
    simp [vecMulVec_apply, mul_comm]
  have e1 : 1 / 2 * -(∑ i, ∑ j, ((S t).cov⁻¹ *ᵥ r) i * D i j * ((S t).cov⁻¹ *ᵥ r) j) + 1 / 2 * (∑ i, ∑ j, (S t).cov⁻¹ i j * D j i) + 0
      = (G * D).trace := by
    have e2 : ∑ i, ∑ j, ((S t).cov⁻¹ *ᵥ r) i * D i j * ((S t).cov⁻¹ *ᵥ r) j = ∑ i, ∑ j, ((S t).cov⁻¹ *ᵥ r) i * ((S t).cov⁻¹ *ᵥ r) j * D j i := by
      rw [sum_comm]
      exact sum_congr rfl fun i _ => sum_congr rfl fun j _ => by ring
    rw [e2, mul_neg, mul_sum, mul_sum, ← sum_neg_distrib, ← sum_add_distrib, add_zero]
    simp only [Matrix.trace, diag_apply, mul_apply]
    refine sum_congr rfl fun i _ => ?_
    rw [mul_sum, mul_sum, ← sum_neg_distrib, ← sum_add_distrib]
    refine sum_congr rfl fun j _ => ?_
    rw [hG, gmat, Matrix.smul_apply, Matrix.sub_apply, vecMulVec_apply, smul_eq_mul]
    ring
  rw [e1]
  have e3 : (G * D).trace = ((S t).goff r * W).trace + dv * G.trace := by
    rw [hD, Matrix.mul_add, trace_add, goff, ← hG, Matrix.sub_mul, trace_sub]
    simp only [Matrix.trace, diag_apply, mul_diagonal, diagonal_mul, mul_sum]
    have : ∑ j, G j j * (dv - W j j) = ∑ j, dv * G j j - ∑ j, G j j * W j j := by
      rw [← sum_sub_distrib]
      exact sum_congr rfl fun j _ => by ring
    rw [this]
    ring
  rw [e3]
  congr 1
  set F := (S t).goff r with hF
  have hFs : Fᵀ = F := by rw [hF, goff, ← hG, transpose_sub, hGs, diagonal_transpose]
  have t1 : (F * (dKᵀ * P)).trace = (P * F * dKᵀ).trace := by rw [← Matrix.mul_assoc, trace_mul_comm, Matrix.mul_assoc]
  have t2 : (F * (Pᵀ * dK)).trace = (P * F * dKᵀ).trace := by
    rw [← trace_transpose, transpose_mul, transpose_mul, transpose_transpose, hFs, Matrix.mul_assoc, trace_mul_comm]
  have t3 : (F * (Pᵀ * dQ * P)).trace = (P * F * Pᵀ * dQ).trace := by
    rw [← Matrix.mul_assoc, trace_mul_comm]
    simp only [Matrix.mul_assoc]
  rw [hW, Matrix.mul_sub, Matrix.mul_add, trace_sub, trace_add, t1, t2, t3]
  ring

theorem QM_sub {S : SpModel m n d} : S.QM - S.Kuu = S.Kun * (diagonal S.lam)⁻¹ * S.Kunᵀ := by rw [QM, add_sub_cancel_left]

theorem proj_cov_inv {S : SpModel m n d} (h : S.Good) : S.proj * S.cov⁻¹ = S.QM⁻¹ * S.Kun * (diagonal S.lam)⁻¹ := by
  have hk := Kuu_unit h
  have hq := QM_unit h
  have e : S.Kuu⁻¹ * (S.Kun * (diagonal S.lam)⁻¹ * S.Kunᵀ) * S.QM⁻¹ = S.Kuu⁻¹ - S.QM⁻¹ := by
    rw [← QM_sub, Matrix.mul_sub, Matrix.sub_mul, nonsing_inv_mul _ hk, Matrix.one_mul, Matrix.mul_assoc, mul_nonsing_inv _ hq, Matrix.mul_one]
  calc S.proj * S.cov⁻¹ = S.Kuu⁻¹ * S.Kun * (diagonal S.lam)⁻¹
        - (S.Kuu⁻¹ * (S.Kun * (diagonal S.lam)⁻¹ * S.Kunᵀ) * S.QM⁻¹) * S.Kun * (diagonal S.lam)⁻¹ := by
        rw [cov_inv h, proj, Matrix.mul_sub]
        simp only [Matrix.mul_assoc]
    _ = _ := by
        rw [e, Matrix.sub_mul, Matrix.sub_mul]
        abel

theorem proj_cov_proj {S : SpModel m n d} (h : S.Good) : S.proj * S.cov⁻¹ * S.projᵀ = S.Kuu⁻¹ - S.QM⁻¹ := by
  have hk := Kuu_unit h
  have hq := QM_unit h
  have hki : (S.Kuu⁻¹)ᵀ = S.Kuu⁻¹ := by rw [transpose_nonsing_inv, Kuu_symm h]
  rw [proj_cov_inv h, proj, transpose_mul, hki]
  calc _ = S.QM⁻¹ * (S.Kun * (diagonal S.lam)⁻¹ * S.Kunᵀ) * S.Kuu⁻¹ := by simp only [Matrix.mul_assoc]
    _ = _ := by rw [← QM_sub, Matrix.mul_sub, Matrix.sub_mul, nonsing_inv_mul _ hq, Matrix.one_mul, Matrix.mul_assoc, mul_nonsing_inv _ hk, Matrix.mul_one]

/-- Weights: `λ_j α_j = r_j - (K_NM (K_M⁻¹ K_MN α))_j`. -/
theorem lam_alpha {S : SpModel m n d} (h : S.Good) (r : Fin n → ℝ) (j : Fin n) :
    S.lam j * (S.cov⁻¹ *ᵥ r) j = r j - (S.Kunᵀ *ᵥ (S.proj *ᵥ (S.cov⁻¹ *ᵥ r))) j := by
  have e : S.cov *ᵥ (S.cov⁻¹ *ᵥ r) = r := by rw [mulVec_mulVec, mul_nonsing_inv _ (cov_unit h), one_mulVec]
  have e2 := congrFun e j
  generalize S.cov⁻¹ *ᵥ r = w at e2 ⊢
  rw [cov, add_mulVec, Pi.add_apply, mulVec_diagonal, Matrix.mul_assoc, ← mulVec_mulVec] at e2
  rw [← e2, proj]
  ring

theorem lam_cov_diag {S : SpModel m n d} (h : S.Good) (j : Fin n) :
    S.lam j * S.cov⁻¹ j j = 1 - (S.Kunᵀ * S.QM⁻¹ * S.Kun) j j / S.lam j := by
  have hl := (lam_pos h j).ne'
  have : (diagonal S.lam)⁻¹ * S.Kunᵀ * S.QM⁻¹ * S.Kun * (diagonal S.lam)⁻¹ = (diagonal S.lam)⁻¹ * (S.Kunᵀ * S.QM⁻¹ * S.Kun) * (diagonal S.lam)⁻¹ := by
    simp only [Matrix.mul_assoc]
  rw [cov_inv h, this, lam_inv h, Matrix.sub_apply, mul_diagonal, diagonal_mul, diagonal_apply_eq]
  field_simp

end SpModel

namespace LikIn
variable {I : LikIn} (h : I.Ok)
include h

theorem sqrt_pos (j : Fin I.n) : 0 < √(I.ep j) := Real.sqrt_pos.mpr (ep_pos h j)

theorem lam_ep (j : Fin I.n) : I.toSp.lam j = I.sig * I.ep j := by rw [ep_eq h, mul_div_cancel₀ _ h.sig.ne']

theorem lam_sqrt (j : Fin I.n) : I.toSp.lam j = I.sig * (√(I.ep j) * √(I.ep j)) := by rw [lam_ep h, sqrt_ep h]

theorem K_apply (a : Fin I.m) (j : Fin I.n) : I.K a j = I.toSp.Kun a j / √(I.ep j) := by rw [K, of_apply, K0_eq h]

theorem invQ_eq : I.invQ = I.toSp.Kuu⁻¹ := Linv h

theorem invLV_apply (a : Fin I.m) (j : Fin I.n) : I.invLV a j = I.toSp.proj a j / √(I.ep j) := by
  have : I.invLV = I.toSp.proj * diagonal fun j => (√(I.ep j))⁻¹ := by
    rw [invLV, luSolve, V_eq h, SpModel.proj, ← Linv h, transpose_nonsing_inv]
    simp only [Matrix.mul_assoc]
  rw [this, mul_diagonal, div_eq_mul_inv]

theorem Ltinv : (I.Lt⁻¹)ᵀ * I.Lt⁻¹ = I.sig⁻¹ • I.toSp.QM⁻¹ := by
  have hu := (cholL h).isUnit
  have hut : IsUnit (I.Lᵀ).det := by rwa [det_transpose]
  rw [Lt, Matrix.mul_inv_rev, transpose_mul]
  calc (I.L⁻¹)ᵀ * (I.Lm⁻¹)ᵀ * (I.Lm⁻¹ * I.L⁻¹) = (I.L⁻¹)ᵀ * ((I.Lm⁻¹)ᵀ * I.Lm⁻¹) * I.L⁻¹ := by simp only [Matrix.mul_assoc]
    _ = I.sig⁻¹ • (((I.Lᵀ)⁻¹ * I.Lᵀ) * I.toSp.QM⁻¹ * (I.L * I.L⁻¹)) := by
      rw [Lminv h, transpose_nonsing_inv]
      simp only [Matrix.mul_smul, Matrix.smul_mul, Matrix.mul_assoc]
    _ = _ := by rw [nonsing_inv_mul _ hut, mul_nonsing_inv _ hu, Matrix.one_mul, Matrix.mul_one]

theorem invA_eq : I.sig • I.invA = I.toSp.QM⁻¹ := by rw [invA, Ltinv h, smul_smul, mul_inv_cancel₀ h.sig.ne', one_smul]

theorem B1_apply (a : Fin I.m) (j : Fin I.n) : I.B1 a j = (I.toSp.proj * I.toSp.cov⁻¹) a j * √(I.ep j) := by
  have hu := (cholL h).isUnit
  have e : I.B1 = I.sig⁻¹ • (I.toSp.QM⁻¹ * I.toSp.Kun * diagonal fun j => (√(I.ep j))⁻¹) := by
    have e1 : I.Lt⁻¹ * I.toSp.Kun = I.Lm⁻¹ * (I.L⁻¹ * I.toSp.Kun) := by rw [Lt, Matrix.mul_inv_rev, Matrix.mul_assoc]
    rw [B1, luSolve, ← transpose_nonsing_inv, invLmV_eq h, V_eq h, ← Matrix.mul_assoc I.Lm⁻¹, ← e1, ← Matrix.mul_assoc, ← Matrix.mul_assoc, Ltinv h,
      Matrix.smul_mul, Matrix.smul_mul]
  rw [e, SpModel.proj_cov_inv (good h), SpModel.lam_inv (good h), Matrix.smul_apply, mul_diagonal, mul_diagonal, lam_sqrt h, smul_eq_mul]
  have := (sqrt_pos h j).ne'
  have := h.sig.ne'
  field_simp

theorem b1_eq : I.b1 = I.toSp.proj *ᵥ (I.toSp.cov⁻¹ *ᵥ I.Y) := by
  have hu := (cholL h).isUnit
  have e1 : I.Lt⁻¹ *ᵥ (I.L *ᵥ (I.V *ᵥ I.y)) = I.bet := by
    rw [Lt, Matrix.mul_inv_rev, mulVec_mulVec, Matrix.mul_assoc, nonsing_inv_mul _ hu, Matrix.mul_one, bet_eq h]
  rw [b1, ← e1, ← transpose_nonsing_inv, mulVec_mulVec, Ltinv h, Vy_eq h, mulVec_mulVec I.Y I.toSp.proj, SpModel.proj_cov_inv (good h)]
  generalize hw : I.toSp.Kun *ᵥ ((diagonal I.toSp.lam)⁻¹ *ᵥ I.Y) = w
  rw [mulVec_smul, mulVec_smul, smul_mulVec, smul_smul, mul_inv_cancel₀ h.sig.ne', one_smul, mulVec_mulVec w, mul_nonsing_inv _ hu,
    one_mulVec, ← hw, mulVec_mulVec, mulVec_mulVec, Matrix.mul_assoc]

theorem mu_eq (j : Fin I.n) : I.mu j = (I.toSp.Kunᵀ *ᵥ I.b1) j / √(I.ep j) := by
  have hu := (cholL h).isUnit
  have e : I.mu = (I.L⁻¹ * I.toSp.Kun * diagonal fun j => (√(I.ep j))⁻¹)ᵀ *ᵥ ((I.Lmᵀ)⁻¹ *ᵥ I.bet) := by rw [mu, ← V_eq h, mulVec_transpose]
  rw [e, b1, Lt, transpose_mul, transpose_mul, transpose_mul, Matrix.mul_inv_rev, diagonal_transpose, ← mulVec_mulVec, mulVec_diagonal, ← mulVec_mulVec,
    ← mulVec_mulVec, transpose_nonsing_inv, div_eq_inv_mul]

theorem mu_sum (j : Fin I.n) : I.mu j = ∑ a, I.b1 a * I.K a j := by
  rw [mu_eq h, mulVec, dotProduct, sum_div]
  refine sum_congr rfl fun a _ => ?_
  rw [K_apply h, transpose_apply]
  ring

theorem y_sub_mu (j : Fin I.n) : I.y j - I.mu j = I.sig * √(I.ep j) * (I.toSp.cov⁻¹ *ᵥ I.Y) j := by
  have hs := (sqrt_pos h j).ne'
  have e := SpModel.lam_alpha (good h) I.Y j
  rw [← b1_eq h, lam_sqrt h] at e
  rw [mu_eq h, y, ← sub_div, ← e]
  field_simp

theorem bet_invLmV : I.bet ᵥ* I.invLmV = I.mu := by
  rw [mu, invLmV_eq h, ← vecMul_vecMul, ← transpose_nonsing_inv, mulVec_transpose]

theorem invLmV_sq (j : Fin I.n) : ∑ i, I.invLmV i j ^ 2 = (I.toSp.Kunᵀ * I.toSp.QM⁻¹ * I.toSp.Kun) j j / I.toSp.lam j := by
  have hu := (cholL h).isUnit
  have hut : IsUnit (I.Lᵀ).det := by rwa [det_transpose]
  have e1 : ∑ i, I.invLmV i j ^ 2 = (I.invLmVᵀ * I.invLmV) j j := by
    rw [mul_apply]
    exact sum_congr rfl fun i _ => by rw [transpose_apply, pow_two]
  have e2 : I.invLmVᵀ * I.invLmV = I.sig⁻¹ • (diagonal (fun j => (√(I.ep j))⁻¹) * (I.toSp.Kunᵀ * I.toSp.QM⁻¹ * I.toSp.Kun) * diagonal fun j => (√(I.ep j))⁻¹) := by
    have e3 : I.invLmV = I.Lt⁻¹ * I.toSp.Kun * diagonal fun j => (√(I.ep j))⁻¹ := by
      rw [invLmV_eq h, V_eq h, Lt, Matrix.mul_inv_rev]
      simp only [Matrix.mul_assoc]
    calc _ = diagonal (fun j => (√(I.ep j))⁻¹) * (I.toSp.Kunᵀ * ((I.Lt⁻¹)ᵀ * I.Lt⁻¹) * I.toSp.Kun) * diagonal fun j => (√(I.ep j))⁻¹ := by
          rw [e3, transpose_mul, transpose_mul, diagonal_transpose]
          simp only [Matrix.mul_assoc]
      _ = _ := by
          rw [Ltinv h]
          simp only [Matrix.mul_smul, Matrix.smul_mul]
  rw [e1, e2, Matrix.smul_apply, mul_diagonal, diagonal_mul, lam_sqrt h, smul_eq_mul]
  have hs := (sqrt_pos h j).ne'
  have := h.sig.ne'
  field_simp

theorem bigsum_eq (j : Fin I.n) : I.bigsum j = I.toSp.lam j * I.toSp.gmat I.Y j j := by
  have e1 := y_sub_mu h j
  have e2 := SpModel.lam_cov_diag (good h) j
  have e3 : (I.y j - I.mu j) ^ 2 = I.sig ^ 2 * I.ep j * (I.toSp.cov⁻¹ *ᵥ I.Y) j ^ 2 := by
    rw [e1, mul_pow, mul_pow, pow_two (√_), sqrt_ep h]
  have e4 : (I.y j - I.mu j) ^ 2 / (2 * I.sig) = I.toSp.lam j * (I.toSp.cov⁻¹ *ᵥ I.Y) j ^ 2 / 2 := by
    rw [e3, lam_ep h]
    have := h.sig.ne'
    field_simp
  rw [bigsum, bet_invLmV h, invLmV_sq h, SpModel.gmat, Matrix.smul_apply, Matrix.sub_apply, vecMulVec_apply, smul_eq_mul]
  have := h.sig.ne'
  have e5 : I.y j * I.mu j / I.sig - (I.y j ^ 2 + I.mu j ^ 2) / (2 * I.sig) = -((I.y j - I.mu j) ^ 2 / (2 * I.sig)) := by
    field_simp
    ring
  linear_combination e5 - e4 - (1 / 2) * e2

/-- Coefficients of the derivative of `K` (divided by `√ep`). -/
noncomputable def Hc (I : LikIn) (a : Fin I.m) (j : Fin I.n) : ℝ := I.B1 a j - I.b1 a * (I.y j - I.mu j) / I.sig - 2 * I.invLV a j * I.bigsum j / I.sig

/-- Coefficients of the derivative of `Q`. -/
noncomputable def Jc (I : LikIn) (a q : Fin I.m) : ℝ := I.invQ a q - I.invA a q * I.sig - I.b1 a * I.b1 q - 2 / I.sig * I.TT a q

theorem proj_goff (a : Fin I.m) (j : Fin I.n) : (I.toSp.proj * I.toSp.goff I.Y) a j
    = ((I.toSp.proj * I.toSp.cov⁻¹) a j - I.b1 a * (I.toSp.cov⁻¹ *ᵥ I.Y) j) / 2 - I.toSp.proj a j * I.toSp.gmat I.Y j j := by
  rw [SpModel.goff, Matrix.mul_sub, Matrix.sub_apply, mul_diagonal, SpModel.gmat, Matrix.mul_smul, Matrix.smul_apply, Matrix.mul_sub, Matrix.sub_apply,
    mul_vecMulVec, vecMulVec_apply, ← b1_eq h, smul_eq_mul]
  ring

theorem Hc_eq (a : Fin I.m) (j : Fin I.n) : I.Hc a j = 2 * (I.toSp.proj * I.toSp.goff I.Y) a j * √(I.ep j) := by
  have hs := (sqrt_pos h j).ne'
  have hsig := h.sig.ne'
  rw [proj_goff h, Hc, B1_apply h, y_sub_mu h, invLV_apply h, bigsum_eq h, lam_sqrt h]
  field_simp

theorem TT_eq (a q : Fin I.m) : I.TT a q = I.sig * ∑ j, I.toSp.proj a j * I.toSp.gmat I.Y j j * I.toSp.proj q j := by
  rw [TT, mul_apply, mul_sum]
  refine sum_congr rfl fun j _ => ?_
  have hs := (sqrt_pos h j).ne'
  rw [of_apply, invLV_apply h, invLV_apply h, bigsum_eq h, lam_sqrt h]
  field_simp

theorem Jc_eq (a q : Fin I.m) : I.Jc a q = 2 * (I.toSp.proj * I.toSp.goff I.Y * I.toSp.projᵀ) a q := by
  have hsig := h.sig.ne'
  have e1 : (I.toSp.proj * I.toSp.goff I.Y * I.toSp.projᵀ) a q
      = ((I.toSp.proj * I.toSp.cov⁻¹ * I.toSp.projᵀ) a q - I.b1 a * I.b1 q) / 2 - ∑ j, I.toSp.proj a j * I.toSp.gmat I.Y j j * I.toSp.proj q j := by
    have hb : I.b1 q = ∑ j, I.toSp.proj q j * (I.toSp.cov⁻¹ *ᵥ I.Y) j := by rw [b1_eq h]; rfl
    rw [mul_apply, mul_apply, hb, mul_sum, ← sum_sub_distrib, sum_div, ← sum_sub_distrib]
    refine sum_congr rfl fun j _ => ?_
    rw [proj_goff h, transpose_apply]
    ring
  have e2 : I.invA a q * I.sig = I.toSp.QM⁻¹ a q := by
    rw [← invA_eq h, Matrix.smul_apply, smul_eq_mul, mul_comm]
  rw [e1, SpModel.proj_cov_proj (good h), Jc, e2, TT_eq h, invQ_eq h, Matrix.sub_apply]
  field_simp

theorem gmat_trace : (I.toSp.gmat I.Y).trace = ∑ j, I.bigsum j / (I.sig * I.ep j) := by
  rw [Matrix.trace]
  refine sum_congr rfl fun j _ => ?_
  rw [bigsum_eq h, ← lam_ep h, diag_apply, mul_div_cancel_left₀ _ (SpModel.lam_pos (good h) j).ne']

theorem Jc_symm (a q : Fin I.m) : I.Jc a q = I.Jc q a := by
  have hg := good h
  have hci : (I.toSp.cov⁻¹)ᵀ = I.toSp.cov⁻¹ := by rw [transpose_nonsing_inv, SpModel.cov_symm hg]
  have hGs : (I.toSp.gmat I.Y)ᵀ = I.toSp.gmat I.Y := by
    rw [SpModel.gmat, transpose_smul, transpose_sub, hci]
    congr 2
    ext i j
    simp [vecMulVec_apply, mul_comm]
  have hF : (I.toSp.goff I.Y)ᵀ = I.toSp.goff I.Y := by rw [SpModel.goff, transpose_sub, hGs, diagonal_transpose]
  have hM : (I.toSp.proj * I.toSp.goff I.Y * I.toSp.projᵀ)ᵀ = I.toSp.proj * I.toSp.goff I.Y * I.toSp.projᵀ := by
    rw [transpose_mul, transpose_mul, transpose_transpose, hF, Matrix.mul_assoc]
  rw [Jc_eq h, Jc_eq h, ← hM, transpose_apply, hM]

theorem Q_apply (a q : Fin I.m) : I.Q a q = I.toSp.k (I.xb a) (I.xb q) + if a = q then I.del else 0 := by
  rw [Q_eq h, SpModel.Kuu, Matrix.add_apply, of_apply, Matrix.smul_apply, one_apply, smul_eq_mul]
  simp only [toSp]
  split_ifs <;> simp

theorem dnnQ_apply (k : Fin I.d) (a q : Fin I.m) : I.dnnQ k a q = √(I.b k) * (I.xb a k - I.xb q k) * I.toSp.k (I.xb a) (I.xb q) := by
  rw [dnnQ, of_apply, Q_apply h, sxb, of_apply, of_apply]
  by_cases e : a = q
  · subst e
    ring
  · rw [if_neg e]
    ring

omit h in
theorem dNnK_apply (k : Fin I.d) (a : Fin I.m) (j : Fin I.n) : I.dNnK k a j = -√(I.b k) * (I.xb a k - I.X j k) * I.K a j := by
  rw [dNnK, of_apply, sxb, sx, of_apply, of_apply]
  ring

omit h in
theorem dfxb_sum (a : Fin I.m) (k : Fin I.d) : I.dfxb a k = √(I.b k) * (∑ j, I.Hc a j * I.dNnK k a j + ∑ q, I.Jc a q * I.dnnQ k a q) := by
  rw [dfxb, mul_comm]
  congr 1
  simp only [sum_div, sum_mul, mul_sum, mul_add, add_mul, ← sum_add_distrib, ← sum_sub_distrib, ← sum_neg_distrib, epdot, of_apply, Hc, Jc]
  have : ∀ (f : Fin I.n → ℝ) (g : Fin I.m → ℝ) (f1 f2 f3 : Fin I.n → ℝ) (g1 g2 g3 : Fin I.m → ℝ), (∀ j, f j = f1 j + f2 j + f3 j) → (∀ q, g q = g1 q + g2 q - g3 q) →
      ∑ j, f1 j + ∑ q, g1 q + ∑ q, g2 q + ∑ j, f2 j - ∑ q, g3 q + ∑ j, f3 j = ∑ j, f j + ∑ q, g q := by
    intro f g f1 f2 f3 g1 g2 g3 hf hg
    simp only [hf, hg, sum_add_distrib, sum_sub_distrib]
    ring
  refine this _ _ _ _ _ _ _ _ (fun j => ?_) (fun q => ?_)
  · ring
  · ring

/-- `dfxb` in terms of the points. -/
theorem dfxb_eq (a : Fin I.m) (k : Fin I.d) : I.dfxb a k
    = I.b k * (∑ q, I.Jc a q * I.toSp.k (I.xb a) (I.xb q) * (I.xb a k - I.xb q k) - ∑ j, I.Hc a j * I.K a j * (I.xb a k - I.X j k)) := by
  have hb : √(I.b k) * √(I.b k) = I.b k := Real.mul_self_sqrt (h.b k).le
  have e : ∀ z, I.b k * z = √(I.b k) * (√(I.b k) * z) := fun z => by rw [← mul_assoc, hb]
  rw [dfxb_sum, e]
  congr 1
  rw [mul_sub, mul_sum, mul_sum, add_comm, sub_eq_add_neg, ← sum_neg_distrib]
  congr 1
  · refine sum_congr rfl fun q _ => ?_
    rw [dnnQ_apply h]
    ring
  · refine sum_congr rfl fun j _ => ?_
    rw [dNnK_apply]
    ring

/-- `dfb` in terms of the points. -/
theorem dfb_eq (k : Fin I.d) : I.dfb k = I.b k * ((∑ a, ∑ q, I.Jc a q * I.toSp.k (I.xb a) (I.xb q) * (I.xb a k - I.xb q k) ^ 2) / 4
    - (∑ a, ∑ j, I.Hc a j * I.K a j * (I.xb a k - I.X j k) ^ 2) / 2) := by
  have hs : 0 < √(I.b k) := Real.sqrt_pos.mpr (h.b k)
  have hb : √(I.b k) * √(I.b k) = I.b k := Real.mul_self_sqrt (h.b k).le
  have e1 : ∑ q, ((I.y q - I.mu q) * (∑ a, I.b1 a * I.dNnK k a q) / I.sig + I.epPmod k q * I.bigsum q) * I.sx q k
      - ∑ q, (∑ a, I.dNnK k a q * I.B1 a q) * I.sx q k = -∑ a, ∑ q, I.Hc a q * I.dNnK k a q * I.sx q k := by
    rw [sum_comm, ← sum_sub_distrib, ← sum_neg_distrib]
    refine sum_congr rfl fun q _ => ?_
    simp only [epPmod, epdot, of_apply, mul_sum, sum_mul, sum_div, add_mul, ← sum_add_distrib, ← sum_sub_distrib, ← sum_neg_distrib]
    refine sum_congr rfl fun a _ => ?_
    rw [Hc]
    ring
  have e2 : ∑ a, I.dfxb a k * I.sxb a k = √(I.b k) * (∑ a, ∑ q, I.Hc a q * I.dNnK k a q * I.sxb a k + ∑ a, ∑ q, I.Jc a q * I.dnnQ k a q * I.sxb a k) := by
    rw [← sum_add_distrib, mul_sum]
    refine sum_congr rfl fun a _ => ?_
    rw [dfxb_sum, mul_assoc, add_mul, sum_mul, sum_mul]
  have e3 : ∑ a, ∑ q, I.Jc a q * I.dnnQ k a q * I.sxb a k
      = (I.b k * ∑ a, ∑ q, I.Jc a q * I.toSp.k (I.xb a) (I.xb q) * (I.xb a k - I.xb q k) ^ 2) / 2 := by
    have e4 : ∑ a, ∑ q, I.Jc a q * I.dnnQ k a q * I.sxb a k = ∑ a, ∑ q, I.Jc a q * -I.dnnQ k a q * I.sxb q k := by
      rw [sum_comm]
      refine sum_congr rfl fun a _ => sum_congr rfl fun q _ => ?_
      rw [Jc_symm h, dnnQ_apply h, dnnQ_apply h, SpModel.k_symm]
      ring
    have e5 : ∑ a, ∑ q, I.Jc a q * I.dnnQ k a q * I.sxb a k + ∑ a, ∑ q, I.Jc a q * -I.dnnQ k a q * I.sxb q k
        = I.b k * ∑ a, ∑ q, I.Jc a q * I.toSp.k (I.xb a) (I.xb q) * (I.xb a k - I.xb q k) ^ 2 := by
      rw [← sum_add_distrib, mul_sum]
      refine sum_congr rfl fun a _ => ?_
      rw [← sum_add_distrib, mul_sum]
      refine sum_congr rfl fun q _ => ?_
      rw [dnnQ_apply h, sxb, of_apply, of_apply]
      linear_combination I.Jc a q * I.toSp.k (I.xb a) (I.xb q) * (I.xb a k - I.xb q k) ^ 2 * hb
    rw [← e4] at e5
    linarith
  have e6 : ∑ a, ∑ q, I.Hc a q * I.dNnK k a q * I.sxb a k - ∑ a, ∑ q, I.Hc a q * I.dNnK k a q * I.sx q k
      = -(I.b k * ∑ a, ∑ j, I.Hc a j * I.K a j * (I.xb a k - I.X j k) ^ 2) := by
    rw [← sum_sub_distrib, mul_sum, ← sum_neg_distrib]
    refine sum_congr rfl fun a _ => ?_
    rw [← sum_sub_distrib, mul_sum, ← sum_neg_distrib]
    refine sum_congr rfl fun j _ => ?_
    rw [dNnK_apply, sxb, sx, of_apply, of_apply]
    linear_combination -I.Hc a j * I.K a j * (I.xb a k - I.X j k) ^ 2 * hb
  rw [dfb, e1, e2, e3]
  have e7 : ∀ p : ℝ, √(I.b k) * p / I.b k = p / √(I.b k) := by
    intro p
    rw [div_eq_div_iff (h.b k).ne' hs.ne']
    linear_combination p * hb
  rw [e7, ← add_div, div_mul_div_cancel₀ hs.ne']
  linarith

/-- `dfc` in terms of the points. -/
theorem dfc_eq : I.dfc = ∑ a, ∑ j, I.Hc a j * I.K a j - (∑ a, ∑ q, I.Jc a q * I.toSp.k (I.xb a) (I.xb q)) / 2
    + I.c * ∑ j, I.bigsum j / (I.sig * I.ep j) := by
  have hg := good h
  have hsig := h.sig.ne'
  have hLu := (cholL h).isUnit
  -- traces
  have c1 : ∑ a, ∑ j, I.B1 a j * I.K a j = I.m - I.sig * ∑ i, ∑ j, I.invA i j * I.Q j i := by
    have e1 : ∑ a, ∑ j, I.B1 a j * I.K a j = (I.toSp.QM⁻¹ * (I.toSp.QM - I.toSp.Kuu)).trace := by
      rw [SpModel.QM_sub]
      have : I.toSp.QM⁻¹ * (I.toSp.Kun * (diagonal I.toSp.lam)⁻¹ * I.toSp.Kunᵀ) = (I.toSp.proj * I.toSp.cov⁻¹) * I.toSp.Kunᵀ := by
        rw [SpModel.proj_cov_inv hg]
        simp only [Matrix.mul_assoc]
      rw [this, Matrix.trace]
      refine sum_congr rfl fun a _ => ?_
      rw [diag_apply, mul_apply]
      refine sum_congr rfl fun j _ => ?_
      have hs := (sqrt_pos h j).ne'
      rw [B1_apply h, K_apply h, transpose_apply]
      field_simp
    rw [e1, Matrix.mul_sub, nonsing_inv_mul _ (SpModel.QM_unit hg), trace_sub, trace_one, Fintype.card_fin, ← invA_eq h, Matrix.smul_mul, trace_smul, Q_eq h]
    simp only [Matrix.trace, diag_apply, mul_apply, smul_eq_mul]
  have c2 : ∑ a, ∑ j, I.b1 a * (I.y j - I.mu j) / I.sig * I.K a j = (I.mu ⬝ᵥ fun q => I.y q - I.mu q) / I.sig := by
    rw [sum_comm, dotProduct, sum_div]
    refine sum_congr rfl fun j _ => ?_
    have e : I.mu j * (I.y j - I.mu j) / I.sig = (∑ a, I.b1 a * I.K a j) * ((I.y j - I.mu j) / I.sig) := by rw [← mu_sum h, mul_div_assoc]
    rw [e, sum_mul]
    exact sum_congr rfl fun a _ => by ring
  have hV : ∀ j, ∑ a, I.invLV a j * I.K a j = ∑ i, I.V i j ^ 2 := by
    intro j
    have e1 : ∑ a, I.invLV a j * I.K a j = (I.invLVᵀ * (I.L * I.V)) j j := by
      have : I.L * I.V = I.K := by
        rw [V_eq h, ← Matrix.mul_assoc, ← Matrix.mul_assoc, mul_nonsing_inv _ hLu, Matrix.one_mul]
        ext a j
        rw [mul_diagonal, K_apply h, div_eq_mul_inv]
      rw [this, mul_apply]
      rfl
    have hut : IsUnit (I.Lᵀ).det := by rwa [det_transpose]
    rw [e1, invLV, luSolve, transpose_mul, transpose_nonsing_inv, transpose_transpose, ← Matrix.mul_assoc, Matrix.mul_assoc I.Vᵀ, nonsing_inv_mul _ hLu, Matrix.mul_one,
      mul_apply]
    exact sum_congr rfl fun i _ => by rw [transpose_apply, pow_two]
  have hQV : ∀ j, ∑ a, ∑ q, I.invLV a j * I.invLV q j * I.Q a q = ∑ i, I.V i j ^ 2 := by
    intro j
    have e1 : ∀ a, ∑ q, I.Q a q * I.invLV q j = I.K a j := by
      intro a
      have : I.Q * I.invLV = I.L * I.V := by
        have hut : IsUnit (I.Lᵀ).det := by rwa [det_transpose]
        rw [Q_eq h, ← (cholL h).prod, invLV, luSolve, Matrix.mul_assoc, ← Matrix.mul_assoc I.Lᵀ, mul_nonsing_inv _ hut, Matrix.one_mul]
      have h2 : I.L * I.V = I.K := by
        rw [V_eq h, ← Matrix.mul_assoc, ← Matrix.mul_assoc, mul_nonsing_inv _ hLu, Matrix.one_mul]
        ext a j
        rw [mul_diagonal, K_apply h, div_eq_mul_inv]
      have := congrFun (congrFun (this.trans h2) a) j
      rwa [mul_apply] at this
    rw [← hV]
    refine sum_congr rfl fun a _ => ?_
    rw [← e1, mul_sum]
    exact sum_congr rfl fun q _ => by ring
  have hk : ∀ a q, I.toSp.k (I.xb a) (I.xb q) = I.Q a q - if a = q then I.del else 0 := by
    intro a q
    rw [Q_apply h]
    ring
  have c3 : ∑ a, ∑ q, I.invQ a q * I.Q a q = I.m := by
    have : ∑ a, ∑ q, I.invQ a q * I.Q a q = (I.invQ * I.Q).trace := by
      simp only [Matrix.trace, diag_apply, mul_apply]
      refine sum_congr rfl fun a _ => sum_congr rfl fun q _ => ?_
      have := congrFun (congrFun (SpModel.Kuu_symm hg) a) q
      rw [transpose_apply, ← Q_eq h] at this
      rw [this]
    rw [this, invQ_eq h, Q_eq h, nonsing_inv_mul _ (SpModel.Kuu_unit hg), trace_one, Fintype.card_fin]
  have hQs : ∀ a q, I.Q a q = I.Q q a := by
    intro a q
    have := congrFun (congrFun (SpModel.Kuu_symm hg) a) q
    rw [transpose_apply, ← Q_eq h] at this
    rw [this]
  have sumDiag : ∀ f : Fin I.m → Fin I.m → ℝ, ∑ a, ∑ q, f a q * (if a = q then I.del else 0) = I.del * ∑ a, f a a := by
    intro f
    rw [mul_sum]
    refine sum_congr rfl fun a _ => ?_
    simp [mul_comm]
  have c4 : ∑ a, ∑ q, I.Jc a q * I.toSp.k (I.xb a) (I.xb q)
      = I.m - I.sig * ∑ i, ∑ j, I.invA i j * I.Q j i - I.del * (I.invQ - I.sig • I.invA).trace
        - (I.b1 ᵥ* (I.Q - I.del • (1 : Matrix (Fin I.m) (Fin I.m) ℝ))) ⬝ᵥ I.b1
        - 2 / I.sig * (∑ j, (∑ i, I.V i j ^ 2) * I.bigsum j - I.del * ∑ j, (∑ a, I.invLV a j ^ 2) * I.bigsum j) := by
    have s1 : ∑ a, ∑ q, I.Jc a q * I.toSp.k (I.xb a) (I.xb q) = ∑ a, ∑ q, I.invQ a q * I.Q a q - I.sig * ∑ a, ∑ q, I.invA a q * I.Q q a
        - I.del * (∑ a, (I.invQ a a - I.sig * I.invA a a))
        - (∑ a, ∑ q, I.b1 a * I.b1 q * I.Q a q - I.del * ∑ a, I.b1 a * I.b1 a)
        - 2 / I.sig * (∑ a, ∑ q, I.TT a q * I.Q a q - I.del * ∑ a, I.TT a a) := by
      have t1 : ∑ a, ∑ q, (I.invQ a q - I.sig * I.invA a q) * (if a = q then I.del else 0) = I.del * ∑ a, (I.invQ a a - I.sig * I.invA a a) := sumDiag _
      have t2 : ∑ a, ∑ q, (I.b1 a * I.b1 q) * (if a = q then I.del else 0) = I.del * ∑ a, I.b1 a * I.b1 a := sumDiag _
      have t3 : ∑ a, ∑ q, I.TT a q * (if a = q then I.del else 0) = I.del * ∑ a, I.TT a a := sumDiag _
      rw [← t1, ← t2, ← t3]
      simp only [mul_sub, mul_sum, ← sum_sub_distrib]
      refine sum_congr rfl fun a _ => sum_congr rfl fun q _ => ?_
      rw [Jc, hk, hQs q a]
      ring
    have s2 : (I.b1 ᵥ* (I.Q - I.del • (1 : Matrix (Fin I.m) (Fin I.m) ℝ))) ⬝ᵥ I.b1 = ∑ a, ∑ q, I.b1 a * I.b1 q * I.Q a q - I.del * ∑ a, I.b1 a * I.b1 a := by
      rw [vecMul_sub, sub_dotProduct, vecMul_smul, vecMul_one, smul_dotProduct, smul_eq_mul]
      congr 1
      rw [dotProduct, sum_comm]
      refine sum_congr rfl fun q _ => ?_
      rw [vecMul, dotProduct, sum_mul]
      exact sum_congr rfl fun a _ => by ring
    have s3 : ∑ a, ∑ q, I.TT a q * I.Q a q = ∑ j, (∑ i, I.V i j ^ 2) * I.bigsum j := by
      have : ∀ a q, I.TT a q = ∑ j, I.invLV a j * I.invLV q j * I.bigsum j := by
        intro a q
        rw [TT, mul_apply]
        exact sum_congr rfl fun j _ => by rw [of_apply]; ring
      simp only [this, sum_mul]
      rw [sum_congr rfl fun a _ => sum_comm, sum_comm]
      refine sum_congr rfl fun j _ => ?_
      rw [← sum_mul, ← hQV, sum_mul]
      refine sum_congr rfl fun a _ => ?_
      rw [sum_mul]
      exact sum_congr rfl fun q _ => by ring
    have s4 : ∑ a, I.TT a a = ∑ j, (∑ a, I.invLV a j ^ 2) * I.bigsum j := by
      simp only [TT, mul_apply, of_apply]
      rw [sum_comm]
      refine sum_congr rfl fun j _ => ?_
      rw [sum_mul]
      exact sum_congr rfl fun a _ => by ring
    rw [s1, s2, s3, s4, c3]
    simp only [Matrix.trace, diag_apply, Matrix.sub_apply, Matrix.smul_apply, smul_eq_mul]
  have c5 : ∑ a, ∑ j, I.Hc a j * I.K a j = I.m - I.sig * ∑ i, ∑ j, I.invA i j * I.Q j i - (I.mu ⬝ᵥ fun q => I.y q - I.mu q) / I.sig
      - 2 / I.sig * ∑ j, (∑ i, I.V i j ^ 2) * I.bigsum j := by
    have s1 : ∑ a, ∑ j, 2 * I.invLV a j * I.bigsum j / I.sig * I.K a j = 2 / I.sig * ∑ j, (∑ i, I.V i j ^ 2) * I.bigsum j := by
      rw [sum_comm, mul_sum]
      refine sum_congr rfl fun j _ => ?_
      rw [← hV, sum_mul, mul_sum]
      exact sum_congr rfl fun a _ => by ring
    rw [← c1, ← c2, ← s1, ← sum_sub_distrib, ← sum_sub_distrib]
    refine sum_congr rfl fun a _ => ?_
    rw [← sum_sub_distrib, ← sum_sub_distrib]
    exact sum_congr rfl fun j _ => by rw [Hc]; ring
  have c6 : ∑ q, I.epc q * I.bigsum q = I.c * ∑ j, I.bigsum j / (I.sig * I.ep j) - 1 / I.sig * ∑ j, (∑ i, I.V i j ^ 2) * I.bigsum j
      - I.del / I.sig * ∑ j, (∑ a, I.invLV a j ^ 2) * I.bigsum j := by
    rw [mul_sum, mul_sum, mul_sum, ← sum_sub_distrib, ← sum_sub_distrib]
    refine sum_congr rfl fun j _ => ?_
    have := (ep_pos h j).ne'
    rw [epc]
    field_simp
  rw [dfc, c4, c5, c6]
  ring

omit h in
theorem dfsig_eq (hs : I.sig ≠ 0) : I.dfsig = I.sig * ∑ j, I.bigsum j / (I.sig * I.ep j) := by
  rw [dfsig, mul_sum]
  refine sum_congr rfl fun j _ => ?_
  rw [← mul_div_assoc, mul_div_mul_left _ _ hs]

omit h in
/-- The covariance function along a path of parameters and points. -/
theorem k_deriv {m n d : Nat} {S : ℝ → SpModel m n d} {t γ : ℝ} {β : Fin d → ℝ} {p q : ℝ → Fin d → ℝ} {dp dq : Fin d → ℝ}
    (hb : ∀ k, HasDerivAt (fun u => (S u).b k) ((S t).b k * β k) t) (hc : HasDerivAt (fun u => (S u).c) ((S t).c * γ) t)
    (hp : ∀ k, HasDerivAt (fun u => p u k) (dp k) t) (hq : ∀ k, HasDerivAt (fun u => q u k) (dq k) t) :
    HasDerivAt (fun u => (S u).k (p u) (q u))
      ((S t).k (p t) (q t) * (γ - (∑ k, ((S t).b k * β k * (p t k - q t k) ^ 2 + 2 * ((S t).b k * (p t k - q t k) * (dp k - dq k)))) / 2)) t := by
  have h1 : HasDerivAt (fun u => ∑ k, (S u).b k * (p u k - q u k) ^ 2)
      (∑ k, ((S t).b k * β k * (p t k - q t k) ^ 2 + 2 * ((S t).b k * (p t k - q t k) * (dp k - dq k)))) t := by
    refine HasDerivAt.fun_sum fun k _ => ?_
    have := (hb k).mul (((hp k).sub (hq k)).fun_pow 2)
    refine this.congr_deriv ?_
    simp only [Pi.sub_apply]
    ring
  have := hc.mul (h1.const_mul (-(1 / 2))).exp
  refine this.congr_deriv ?_
  rw [SpModel.k]
  ring

/-- The derivative of the negative log likelihood along any path of pseudo-inputs and parameters. -/
theorem nll_path {S : ℝ → SpModel I.m I.n I.d} {t γ δ : ℝ} {β : Fin I.d → ℝ} {dU : Fin I.m → Fin I.d → ℝ} (ht : S t = I.toSp)
    (hX : ∀ u, (S u).X = I.X) (hj : ∀ u, (S u).jit = I.del) (hU : ∀ a k, HasDerivAt (fun u => (S u).U a k) (dU a k) t)
    (hb : ∀ k, HasDerivAt (fun u => (S u).b k) (I.b k * β k) t) (hc : HasDerivAt (fun u => (S u).c) (I.c * γ) t)
    (hs : HasDerivAt (fun u => (S u).sig) (I.sig * δ) t) :
    HasDerivAt (fun u => (S u).nll I.Y)
      ((∑ k, ∑ a, I.dfxb a k * dU a k) + (∑ k, I.dfb k * β k) + I.dfc * γ + I.dfsig * δ) t := by
  have hbt : (S t).b = I.b := by rw [ht]; rfl
  have hct : (S t).c = I.c := by rw [ht]; rfl
  have hUt : (S t).U = I.xb := by rw [ht]; rfl
  have hkt : ∀ x z, (S t).k x z = I.toSp.k x z := by intro x z; rw [ht]
  have hg : (S t).Good := by rw [ht]; exact good h
  have hb' : ∀ k, HasDerivAt (fun u => (S u).b k) ((S t).b k * β k) t := by rw [hbt]; exact hb
  have hc' : HasDerivAt (fun u => (S u).c) ((S t).c * γ) t := by rw [hct]; exact hc
  set κ : Fin I.m → Fin I.n → ℝ := fun a j =>
    γ - (∑ k, (I.b k * β k * (I.xb a k - I.X j k) ^ 2 + 2 * (I.b k * (I.xb a k - I.X j k) * (dU a k - 0)))) / 2 with hκ
  set ρ : Fin I.m → Fin I.m → ℝ := fun a q =>
    γ - (∑ k, (I.b k * β k * (I.xb a k - I.xb q k) ^ 2 + 2 * (I.b k * (I.xb a k - I.xb q k) * (dU a k - dU q k)))) / 2 with hρ
  have hK : RDeriv (fun u => (S u).Kun) (Matrix.of fun a j => I.toSp.k (I.xb a) (I.X j) * κ a j) t := by
    intro a j
    have e : (fun u => (S u).Kun a j) = fun u => (S u).k ((S u).U a) (I.X j) := by
      funext u
      rw [SpModel.Kun, of_apply, hX]
    have := k_deriv hb' hc' (fun k => hU a k) (fun k => hasDerivAt_const t (I.X j k)) (q := fun _ => I.X j)
    rw [hkt, hbt, hUt] at this
    rw [e]
    exact this
  have hQ : MDeriv (fun u => (S u).Kuu) (Matrix.of fun a q => I.toSp.k (I.xb a) (I.xb q) * ρ a q) t := by
    intro a q
    have e : (fun u => (S u).Kuu a q) = fun u => (S u).k ((S u).U a) ((S u).U q) + I.del * (1 : Matrix (Fin I.m) (Fin I.m) ℝ) a q := by
      funext u
      rw [SpModel.Kuu, Matrix.add_apply, of_apply, hj, Matrix.smul_apply, smul_eq_mul]
    have := (k_deriv hb' hc' (fun k => hU a k) (fun k => hU q k)).add_const (I.del * (1 : Matrix (Fin I.m) (Fin I.m) ℝ) a q)
    rw [hkt, hbt, hUt] at this
    rw [e]
    exact this
  have hd := SpModel.nll_deriv hg hQ hK (hc.add hs) I.Y
  refine hd.congr_deriv ?_
  rw [ht]
  have e1 : 2 * (I.toSp.proj * I.toSp.goff I.Y * (Matrix.of fun a j => I.toSp.k (I.xb a) (I.X j) * κ a j)ᵀ).trace
      = ∑ a, ∑ j, I.Hc a j * I.K a j * κ a j := by
    rw [Matrix.trace, mul_sum]
    refine sum_congr rfl fun a _ => ?_
    rw [diag_apply, mul_apply, mul_sum]
    refine sum_congr rfl fun j _ => ?_
    have := (sqrt_pos h j).ne'
    have hk : I.toSp.k (I.xb a) (I.X j) = I.toSp.Kun a j := rfl
    rw [transpose_apply, of_apply, Hc_eq h, K_apply h, hk]
    field_simp
  have hρs : ∀ a q, ρ a q = ρ q a := by
    intro a q
    simp only [hρ]
    congr 2
    exact sum_congr rfl fun k _ => by ring
  have e2 : (I.toSp.proj * I.toSp.goff I.Y * I.toSp.projᵀ * (Matrix.of fun a q => I.toSp.k (I.xb a) (I.xb q) * ρ a q)).trace
      = (∑ a, ∑ q, I.Jc a q * I.toSp.k (I.xb a) (I.xb q) * ρ a q) / 2 := by
    rw [Matrix.trace, sum_div]
    refine sum_congr rfl fun a _ => ?_
    rw [diag_apply, mul_apply, sum_div]
    refine sum_congr rfl fun q _ => ?_
    rw [of_apply, Jc_eq h, SpModel.k_symm (I.xb q) (I.xb a), hρs q a]
    ring
  rw [e1, e2, gmat_trace h]
  have e3 : ∑ a, ∑ j, I.Hc a j * I.K a j * κ a j = γ * ∑ a, ∑ j, I.Hc a j * I.K a j
      - ∑ k, (I.b k * β k * ((∑ a, ∑ j, I.Hc a j * I.K a j * (I.xb a k - I.X j k) ^ 2) / 2)
          + I.b k * ∑ a, (∑ j, I.Hc a j * I.K a j * (I.xb a k - I.X j k)) * dU a k) := by
    have : ∀ a j, I.Hc a j * I.K a j * κ a j = γ * (I.Hc a j * I.K a j) - ∑ k, (I.b k * β k * (I.Hc a j * I.K a j * (I.xb a k - I.X j k) ^ 2 / 2)
          + I.b k * ((I.Hc a j * I.K a j * (I.xb a k - I.X j k)) * dU a k)) := by
      intro a j
      simp only [hκ]
      rw [mul_sub, sum_div, mul_sum]
      congr 1
      · ring
      · exact sum_congr rfl fun k _ => by ring
    simp only [this, sum_sub_distrib, ← mul_sum]
    congr 1
    rw [sum_congr rfl fun a _ => sum_comm, sum_comm]
    refine sum_congr rfl fun k _ => ?_
    simp only [sum_add_distrib, ← mul_sum, ← sum_mul, ← sum_div]
  have e4 : ∑ a, ∑ q, I.Jc a q * I.toSp.k (I.xb a) (I.xb q) * ρ a q = γ * ∑ a, ∑ q, I.Jc a q * I.toSp.k (I.xb a) (I.xb q)
      - ∑ k, (I.b k * β k * ((∑ a, ∑ q, I.Jc a q * I.toSp.k (I.xb a) (I.xb q) * (I.xb a k - I.xb q k) ^ 2) / 2)
          + 2 * (I.b k * ∑ a, (∑ q, I.Jc a q * I.toSp.k (I.xb a) (I.xb q) * (I.xb a k - I.xb q k)) * dU a k)) := by
    have : ∀ a q, I.Jc a q * I.toSp.k (I.xb a) (I.xb q) * ρ a q = γ * (I.Jc a q * I.toSp.k (I.xb a) (I.xb q))
        - ∑ k, (I.b k * β k * (I.Jc a q * I.toSp.k (I.xb a) (I.xb q) * (I.xb a k - I.xb q k) ^ 2 / 2)
          + (I.b k * ((I.Jc a q * I.toSp.k (I.xb a) (I.xb q) * (I.xb a k - I.xb q k)) * dU a k)
            - I.b k * ((I.Jc a q * I.toSp.k (I.xb a) (I.xb q) * (I.xb a k - I.xb q k)) * dU q k))) := by
      intro a q
      simp only [hρ]
      rw [mul_sub, sum_div, mul_sum]
      congr 1
      · ring
      · exact sum_congr rfl fun k _ => by ring
    simp only [this, sum_sub_distrib, ← mul_sum]
    congr 1
    rw [sum_congr rfl fun a _ => sum_comm, sum_comm]
    refine sum_congr rfl fun k _ => ?_
    simp only [sum_add_distrib, sum_sub_distrib, ← mul_sum, ← sum_mul, ← sum_div]
    congr 1
    have : ∑ a, ∑ q, I.Jc a q * I.toSp.k (I.xb a) (I.xb q) * (I.xb a k - I.xb q k) * dU q k
        = -∑ a, (∑ q, I.Jc a q * I.toSp.k (I.xb a) (I.xb q) * (I.xb a k - I.xb q k)) * dU a k := by
      rw [sum_comm, ← sum_neg_distrib]
      refine sum_congr rfl fun a _ => ?_
      rw [sum_mul, ← sum_neg_distrib]
      refine sum_congr rfl fun q _ => ?_
      rw [Jc_symm h, SpModel.k_symm (I.xb q) (I.xb a)]
      ring
    rw [this]
    ring
  rw [e3, e4, dfc_eq h, dfsig_eq h.sig.ne']
  have e5 : ∑ k, ∑ a, I.dfxb a k * dU a k = ∑ k, (I.b k * ∑ a, (∑ q, I.Jc a q * I.toSp.k (I.xb a) (I.xb q) * (I.xb a k - I.xb q k)) * dU a k
      - I.b k * ∑ a, (∑ j, I.Hc a j * I.K a j * (I.xb a k - I.X j k)) * dU a k) := by
    refine sum_congr rfl fun k _ => ?_
    rw [mul_sum, mul_sum, ← sum_sub_distrib]
    refine sum_congr rfl fun a _ => ?_
    rw [dfxb_eq h]
    ring
  have e6 : ∑ k, I.dfb k * β k = ∑ k, (I.b k * β k * ((∑ a, ∑ q, I.Jc a q * I.toSp.k (I.xb a) (I.xb q) * (I.xb a k - I.xb q k) ^ 2) / 4)
      - I.b k * β k * ((∑ a, ∑ j, I.Hc a j * I.K a j * (I.xb a k - I.X j k) ^ 2) / 2)) := by
    refine sum_congr rfl fun k _ => ?_
    rw [dfb_eq h]
    ring
  rw [e5, e6]
  simp only [sum_add_distrib, sum_sub_distrib]
  have e7 : ∑ k, I.b k * β k * ((∑ a, ∑ q, I.Jc a q * I.toSp.k (I.xb a) (I.xb q) * (I.xb a k - I.xb q k) ^ 2) / 4)
      = (∑ k, I.b k * β k * ((∑ a, ∑ q, I.Jc a q * I.toSp.k (I.xb a) (I.xb q) * (I.xb a k - I.xb q k) ^ 2) / 2)) / 2 := by
    rw [sum_div]
    exact sum_congr rfl fun k _ => by ring
  have e8 : ∑ k, 2 * (I.b k * ∑ a, (∑ q, I.Jc a q * I.toSp.k (I.xb a) (I.xb q) * (I.xb a k - I.xb q k)) * dU a k)
      = 2 * ∑ k, I.b k * ∑ a, (∑ q, I.Jc a q * I.toSp.k (I.xb a) (I.xb q) * (I.xb a k - I.xb q k)) * dU a k := by rw [mul_sum]
  rw [e7, e8]
  ring

end LikIn
end Limbo
