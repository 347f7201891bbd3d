import Mathlib.LinearAlgebra.Matrix.NonsingularInverse
import Mathlib.LinearAlgebra.Matrix.Adjugate
import Mathlib.Analysis.Calculus.Deriv.Mul
import Mathlib.Analysis.Calculus.Deriv.Add
import Mathlib.Analysis.Calculus.Deriv.Inv
import Mathlib.Analysis.SpecialFunctions.Log.Deriv
import Mathlib.Algebra.BigOperators.Field
import Mathlib.Tactic.FieldSimp
import Mathlib.Tactic.Ring

/-!
Derivatives of determinants and inverses of matrices depending on a real parameter.
-/

set_option linter.unusedSectionVars false

namespace Limbo

open Matrix Finset

variable {ι : Type} [Fintype ι] [DecidableEq ι]

/-- Every entry of `K` has the derivative given by `D` at `t`. -/
def MDeriv (K : ℝ → Matrix ι ι ℝ) (D : Matrix ι ι ℝ) (t : ℝ) : Prop := ∀ i j, HasDerivAt (fun t => K t i j) (D i j) t

/-- Jacobi's formula. -/
theorem MDeriv.det {K : ℝ → Matrix ι ι ℝ} {D : Matrix ι ι ℝ} {t : ℝ} (h : MDeriv K D t) :
    HasDerivAt (fun t => (K t).det) (∑ i, ∑ j, (K t).adjugate i j * D j i) t := by
  have e : ∀ i, ∑ j, (K t).adjugate i j * D j i = ∑ σ : Equiv.Perm ι, (Equiv.Perm.sign σ : ℝ) * ((∏ j ∈ univ.erase i, K t (σ j) j) * D (σ i) i) := by
    intro i
    have h1 : ∑ j, (K t).adjugate i j * D j i = ((K t).adjugate *ᵥ fun j => D j i) i := rfl
    rw [h1, ← Matrix.cramer_eq_adjugate_mulVec, Matrix.cramer_apply, Matrix.det_apply']
    apply sum_congr rfl
    intro σ _
    congr 1
    rw [← mul_prod_erase univ _ (mem_univ i), mul_comm]
    congr 1
    · apply prod_congr rfl
      intro j hj
      rw [Matrix.updateCol_ne (ne_of_mem_erase hj)]
    · rw [Matrix.updateCol_self]
  simp only [e]
  rw [sum_comm]
  simp only [Matrix.det_apply']
  have hs : ∀ σ ∈ (univ : Finset (Equiv.Perm ι)), HasDerivAt (fun t => ((Equiv.Perm.sign σ : ℤ) : ℝ) * ∏ i, K t (σ i) i)
      (∑ i, ((Equiv.Perm.sign σ : ℤ) : ℝ) * ((∏ j ∈ univ.erase i, K t (σ j) j) * D (σ i) i)) t := by
    intro σ _
    have hp := HasDerivAt.fun_finset_prod (u := (univ : Finset ι)) (f := fun i t => K t (σ i) i) (f' := fun i => D (σ i) i) (x := t)
      (fun i _ => h (σ i) i)
    have := hp.const_mul ((Equiv.Perm.sign σ : ℤ) : ℝ)
    refine this.congr_deriv ?_
    rw [mul_sum]
    rfl
  exact HasDerivAt.fun_sum hs

theorem MDeriv.adjugate {K : ℝ → Matrix ι ι ℝ} {D : Matrix ι ι ℝ} {t : ℝ} (h : MDeriv K D t) (i j : ι) :
    DifferentiableAt ℝ (fun t => (K t).adjugate i j) t := by
  simp only [Matrix.adjugate_apply]
  have : MDeriv (fun t => (K t).updateRow j (Pi.single i 1)) (D.updateRow j 0) t := by
    intro a b
    by_cases ha : a = j
    · subst ha
      simp only [Matrix.updateRow_self]
      exact hasDerivAt_const _ _
    · simp only [Matrix.updateRow_ne ha]
      exact h a b
  exact this.det.differentiableAt

theorem MDeriv.continuousAt_det {K : ℝ → Matrix ι ι ℝ} {D : Matrix ι ι ℝ} {t : ℝ} (h : MDeriv K D t) :
    ContinuousAt (fun t => (K t).det) t := h.det.continuousAt

/-- The inverse's derivative is `-K⁻¹ D K⁻¹`. -/
theorem MDeriv.inv {K : ℝ → Matrix ι ι ℝ} {D : Matrix ι ι ℝ} {t : ℝ} (h : MDeriv K D t) (h0 : (K t).det ≠ 0) :
    MDeriv (fun t => (K t)⁻¹) (-((K t)⁻¹ * D * (K t)⁻¹)) t := by
  have hdiff : ∀ i j, DifferentiableAt ℝ (fun t => (K t)⁻¹ i j) t := by
    intro i j
    have e : (fun t => (K t)⁻¹ i j) = fun t => (K t).det⁻¹ * (K t).adjugate i j := by
      funext t
      rw [Matrix.inv_def, Matrix.smul_apply, smul_eq_mul, Ring.inverse_eq_inv']
    rw [e]
    exact (h.det.differentiableAt.inv h0).mul (h.adjugate i j)
  set X : Matrix ι ι ℝ := Matrix.of fun i j => deriv (fun t => (K t)⁻¹ i j) t with hX
  have hXd : MDeriv (fun t => (K t)⁻¹) X t := fun i j => (hdiff i j).hasDerivAt
  have hprod : D * (K t)⁻¹ + K t * X = 0 := by
    ext i j
    have h1 : HasDerivAt (fun t => ∑ k, K t i k * (K t)⁻¹ k j) (∑ k, (D i k * (K t)⁻¹ k j + K t i k * X k j)) t :=
      HasDerivAt.fun_sum fun k _ => (h i k).mul (hXd k j)
    have h2 : HasDerivAt (fun t => ∑ k, K t i k * (K t)⁻¹ k j) 0 t := by
      have hev : ∀ᶠ u in nhds t, (K u).det ≠ 0 := h.continuousAt_det.eventually_ne h0
      refine (hasDerivAt_const t ((1 : Matrix ι ι ℝ) i j)).congr_of_eventuallyEq ?_
      filter_upwards [hev] with u hu
      rw [← Matrix.mul_nonsing_inv (K u) (isUnit_iff_ne_zero.2 hu), Matrix.mul_apply]
    have := h1.unique h2
    rw [Matrix.add_apply, Matrix.mul_apply, Matrix.mul_apply, ← sum_add_distrib, this]
    rfl
  have hXe : X = -((K t)⁻¹ * D * (K t)⁻¹) := by
    have hu := isUnit_iff_ne_zero.2 h0
    have h1 : K t * X = -(D * (K t)⁻¹) := by rw [eq_neg_iff_add_eq_zero, add_comm]; exact hprod
    calc X = (K t)⁻¹ * (K t * X) := by rw [← Matrix.mul_assoc, Matrix.nonsing_inv_mul _ hu, Matrix.one_mul]
      _ = _ := by rw [h1, Matrix.mul_neg, Matrix.mul_assoc]
  rw [← hXe]
  exact hXd

/-- `log det K` has derivative `tr (K⁻¹ D)`. -/
theorem MDeriv.logdet {K : ℝ → Matrix ι ι ℝ} {D : Matrix ι ι ℝ} {t : ℝ} (h : MDeriv K D t) (h0 : (K t).det ≠ 0) :
    HasDerivAt (fun t => Real.log (K t).det) (∑ i, ∑ j, (K t)⁻¹ i j * D j i) t := by
  refine (h.det.log h0).congr_deriv ?_
  rw [sum_div]
  apply sum_congr rfl
  intro i _
  rw [sum_div]
  apply sum_congr rfl
  intro j _
  rw [Matrix.inv_def, Matrix.smul_apply, smul_eq_mul, Ring.inverse_eq_inv']
  field_simp

/-- The weights `K⁻¹ r`, for fixed `r`. -/
theorem MDeriv.weights {K : ℝ → Matrix ι ι ℝ} {D : Matrix ι ι ℝ} {t : ℝ} (h : MDeriv K D t) (h0 : (K t).det ≠ 0) (r : ι → ℝ) (i : ι) :
    HasDerivAt (fun t => ((K t)⁻¹ *ᵥ r) i) (-(((K t)⁻¹ * D) *ᵥ ((K t)⁻¹ *ᵥ r)) i) t := by
  have h1 : HasDerivAt (fun t => ∑ j, (K t)⁻¹ i j * r j) (∑ j, (-((K t)⁻¹ * D * (K t)⁻¹)) i j * r j) t :=
    HasDerivAt.fun_sum fun j _ => (h.inv h0 i j).mul_const (r j)
  refine h1.congr_deriv ?_
  rw [Matrix.mulVec_mulVec]
  simp only [Matrix.mulVec, dotProduct, Matrix.neg_apply, neg_mul, sum_neg_distrib]

/-- `rᵀ K⁻¹ r` for symmetric `K`: the derivative is `-αᵀ D α` with `α = K⁻¹ r`. -/
theorem MDeriv.quad {K : ℝ → Matrix ι ι ℝ} {D : Matrix ι ι ℝ} {t : ℝ} (h : MDeriv K D t) (h0 : (K t).det ≠ 0) (hs : (K t)ᵀ = K t) (r : ι → ℝ) :
    HasDerivAt (fun t => r ⬝ᵥ ((K t)⁻¹ *ᵥ r)) (-∑ i, ∑ j, ((K t)⁻¹ *ᵥ r) i * D i j * ((K t)⁻¹ *ᵥ r) j) t := by
  have h1 : HasDerivAt (fun t => ∑ i, r i * ((K t)⁻¹ *ᵥ r) i) (∑ i, r i * (-(((K t)⁻¹ * D) *ᵥ ((K t)⁻¹ *ᵥ r)) i)) t :=
    HasDerivAt.fun_sum fun i _ => (h.weights h0 r i).const_mul (r i)
  refine h1.congr_deriv ?_
  have hsi : ((K t)⁻¹)ᵀ = (K t)⁻¹ := by rw [Matrix.transpose_nonsing_inv, hs]
  have e : r ⬝ᵥ (((K t)⁻¹ * D) *ᵥ ((K t)⁻¹ *ᵥ r)) = ((K t)⁻¹ *ᵥ r) ⬝ᵥ (D *ᵥ ((K t)⁻¹ *ᵥ r)) := by
    rw [← Matrix.mulVec_mulVec, Matrix.dotProduct_mulVec, ← Matrix.mulVec_transpose, hsi]
  have e2 : ∑ i, r i * (-(((K t)⁻¹ * D) *ᵥ ((K t)⁻¹ *ᵥ r)) i) = -(r ⬝ᵥ (((K t)⁻¹ * D) *ᵥ ((K t)⁻¹ *ᵥ r))) := by
    simp only [mul_neg, sum_neg_distrib, dotProduct]
  rw [e2, e]
  congr 1
  simp only [dotProduct, Matrix.mulVec, mul_sum, mul_assoc]

end Limbo
