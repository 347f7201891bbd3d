import Mathlib.MeasureTheory.Integral.IntegralEqImproper
import Mathlib.Analysis.SpecialFunctions.Gaussian.GaussianIntegral
import Mathlib.Tactic.FieldSimp
import Mathlib.Tactic.Ring
import Mathlib.Tactic.Linarith
import Verif.Model.Acqui
import Verif.Spec.Acqui

/-! Gaussian integrals behind the expected improvement and the probability of feasibility. -/

namespace Limbo

open MeasureTheory ProbabilityTheory Acqui Set Filter Topology

theorem phi_pdf (z : ℝ) : gaussianPDFReal 0 1 z = phi z := by
  unfold gaussianPDFReal phi
  rw [div_eq_inv_mul (Real.exp _), show (-(z - 0) ^ 2 / (2 * ((1 : NNReal) : ℝ))) = -0.5 * z ^ 2 by norm_num; ring, NNReal.coe_one, mul_one]

theorem phi_pos (z : ℝ) : 0 < phi z := by
  rw [← phi_pdf]; exact gaussianPDFReal_pos _ _ _ one_ne_zero

theorem phi_neg (z : ℝ) : phi (-z) = phi z := by unfold phi; rw [neg_sq]

theorem phi_integrable : Integrable phi := by
  have := integrable_gaussianPDFReal 0 1
  rwa [show gaussianPDFReal 0 1 = phi from funext phi_pdf] at this

theorem capPhi_eq (z : ℝ) : capPhi z = ∫ u in Ioi (-z), phi u := by
  unfold capPhi erfc
  have h2 : (0 : ℝ) < √2 := Real.sqrt_pos.2 (by norm_num)
  have hs := integral_comp_mul_left_Ioi (fun t : ℝ => Real.exp (-t ^ 2)) (-z) (inv_pos.2 h2)
  rw [show (√2)⁻¹ * -z = -z / √2 by ring] at hs
  simp only [inv_inv, smul_eq_mul] at hs
  have h1 : (∫ u in Ioi (-z), phi u) = (√(2 * Real.pi))⁻¹ * ∫ u in Ioi (-z), Real.exp (-((√2)⁻¹ * u) ^ 2) := by
    rw [← integral_const_mul]
    congr 1
    funext u
    unfold phi
    rw [div_eq_inv_mul]
    congr 2
    rw [mul_pow, inv_pow, Real.sq_sqrt (by norm_num)]
    ring
  rw [h1, hs, Real.sqrt_mul (by norm_num)]
  have hp : (0 : ℝ) < √Real.pi := Real.sqrt_pos.2 Real.pi_pos
  field_simp
  norm_num

theorem integrable_mul_phi : Integrable fun z : ℝ => z * phi z := by
  have h := integrable_mul_exp_neg_mul_sq (b := (1 / 2 : ℝ)) (by norm_num)
  have h' := h.div_const (√(2 * Real.pi))
  refine h'.congr (Eventually.of_forall fun z => ?_)
  simp only [phi]
  rw [mul_div_assoc]
  congr 3
  norm_num

theorem phi_deriv (z : ℝ) : HasDerivAt (fun z => -phi z) (z * phi z) z := by
  unfold phi
  have h : HasDerivAt (fun z : ℝ => -0.5 * z ^ 2) (-0.5 * (2 * z)) z := by
    have := (hasDerivAt_pow 2 z).const_mul (-0.5 : ℝ)
    simpa using this
  have := ((h.exp).div_const (√(2 * Real.pi))).fun_neg
  refine this.congr_deriv ?_
  norm_num
  ring

theorem phi_tendsto : Tendsto (fun z => -phi z) atTop (𝓝 0) := by
  rw [show (0 : ℝ) = -(0 / √(2 * Real.pi)) by simp]
  apply Tendsto.neg
  unfold phi
  apply Tendsto.div_const
  refine Real.tendsto_exp_atBot.comp ?_
  have : Tendsto (fun z : ℝ => z ^ 2) atTop atTop := tendsto_pow_atTop two_ne_zero
  exact this.const_mul_atTop_of_neg (by norm_num)

theorem integral_mul_phi (a : ℝ) : ∫ z in Ioi a, z * phi z = phi a := by
  rw [integral_Ioi_of_hasDerivAt_of_tendsto' (f := fun z => -phi z) (m := 0) (fun x _ => phi_deriv x) integrable_mul_phi.integrableOn phi_tendsto]
  ring

/-- a Gaussian variable is a scaled and shifted standard one -/
theorem gaussian_std (m : ℝ) {var : ℝ} (hv : 0 < var) :
    gaussianReal m var.toNNReal = (gaussianReal 0 1).map fun x => √var * x + m := by
  have h1 := gaussianReal_map_const_mul (μ := 0) (v := 1) (√var)
  have h2 := gaussianReal_map_add_const (μ := √var * 0) (v := NNReal.mk (√var ^ 2) (sq_nonneg _) * 1) m
  rw [← h1, Measure.map_map (measurable_add_const m) (measurable_const_mul _)] at h2
  have e : ((fun x => x + m) ∘ fun x => √var * x) = fun x => √var * x + m := rfl
  rw [e] at h2
  rw [h2]
  congr 1
  · ring
  · apply NNReal.eq
    simp [Real.coe_toNNReal _ hv.le, Real.sq_sqrt hv.le]

theorem gauss_tail (a : ℝ) : (gaussianReal 0 1).real (Ici a) = capPhi (-a) := by
  rw [capPhi_eq, neg_neg, Measure.real, gaussianReal_apply_eq_integral _ one_ne_zero, integral_Ici_eq_integral_Ioi,
    ENNReal.toReal_ofReal]
  · exact setIntegral_congr_fun measurableSet_Ioi fun z _ => phi_pdf z
  · exact setIntegral_nonneg measurableSet_Ioi fun z _ => gaussianPDFReal_nonneg _ _ _

theorem probAtLeast_eq (m : ℝ) {var : ℝ} (hv : 0 < var) (b : ℝ) : probAtLeast m var b = capPhi ((m - b) / √var) := by
  have hs : 0 < √var := Real.sqrt_pos.2 hv
  unfold probAtLeast
  rw [gaussian_std m hv, Measure.real, Measure.map_apply (by fun_prop) measurableSet_Ici]
  have : (fun x => √var * x + m) ⁻¹' Ici b = Ici (-((m - b) / √var)) := by
    ext x
    simp only [mem_preimage, mem_Ici]
    rw [← sub_nonneg, ← sub_nonneg (a := x)]
    have : √var * x + m - b = √var * (x - -((m - b) / √var)) := by field_simp; ring
    rw [this, mul_nonneg_iff_of_pos_left hs]
  rw [this]
  have := gauss_tail (-((m - b) / √var))
  rw [neg_neg] at this
  exact this

theorem expectedExcess_eq (m : ℝ) {var : ℝ} (hv : 0 < var) (b : ℝ) :
    expectedExcess m var b = (m - b) * capPhi ((m - b) / √var) + √var * phi ((m - b) / √var) := by
  have hs : 0 < √var := Real.sqrt_pos.2 hv
  set X := m - b with hX
  set Z := X / √var with hZ
  unfold expectedExcess
  rw [gaussian_std m hv, integral_map (by fun_prop) (by fun_prop), integral_gaussianReal_eq_integral_smul one_ne_zero]
  have h1 : (fun x => gaussianPDFReal 0 1 x • max 0 (√var * x + m - b)) =
      (Ioi (-Z)).indicator fun x => √var * (x * phi x) + X * phi x := by
    funext x
    rw [phi_pdf, smul_eq_mul]
    have e : √var * x + m - b = √var * (x - -Z) := by rw [hZ]; field_simp; ring
    by_cases hx : x ∈ Ioi (-Z)
    · rw [indicator_of_mem hx, max_eq_right]
      · rw [hX]; ring
      · rw [e]; exact mul_nonneg hs.le (sub_nonneg.2 (le_of_lt hx))
    · rw [indicator_of_notMem hx, max_eq_left, mul_zero]
      rw [e]
      exact mul_nonpos_of_nonneg_of_nonpos hs.le (sub_nonpos.2 (not_lt.1 hx))
  rw [h1, integral_indicator measurableSet_Ioi, integral_add (integrable_mul_phi.integrableOn.const_mul _) (phi_integrable.integrableOn.const_mul _),
    integral_const_mul, integral_const_mul, integral_mul_phi, phi_neg, ← capPhi_eq]
  ring

end Limbo
