import Verif.Lemmas.EhviSum
import Verif.Lemmas.Gauss
import Verif.Model.Ehvi

/-! The Gaussian integrals over the cells of the grid. -/

namespace Limbo.Ehvi

open MeasureTheory ProbabilityTheory Set Acqui

theorem erf_eq (x : ℝ) : erf x = 1 - erfc x := by
  have hpi : (0 : ℝ) < √Real.pi := Real.sqrt_pos.2 Real.pi_pos
  have hint : Integrable fun t : ℝ => Real.exp (-t ^ 2) := by
    have := integrable_exp_neg_mul_sq (b := (1 : ℝ)) one_pos
    simpa using this
  have h := intervalIntegral.integral_interval_add_Ioi (a := (0 : ℝ)) (b := x) (μ := volume) (f := fun t : ℝ => Real.exp (-t ^ 2))
    hint.integrableOn hint.integrableOn
  have h0 : ∫ t in Ioi (0 : ℝ), Real.exp (-t ^ 2) = √Real.pi / 2 := by
    have := integral_gaussian_Ioi 1
    simpa using this
  rw [h0] at h
  unfold erf erfc
  rw [eq_sub_of_add_eq h]
  field_simp

theorem gausscdf_exact (z : ℝ) : gausscdf Consts.exact z = 1 - capPhi (-z) := by
  unfold gausscdf capPhi
  rw [erf_eq]
  simp only [Consts.exact, neg_neg]
  ring

theorem gausspdf_exact (z : ℝ) : gausspdf Consts.exact z = phi z := by
  unfold gausspdf phi
  simp only [Consts.exact]
  rw [show -(z * z) / 2 = -0.5 * z ^ 2 by ring]
  ring

variable {mu s : ℝ}

theorem ind_meas (b : WithTop ℝ) : Measurable (ind b) := by
  induction b using WithTop.recTopCoe with
  | top => exact measurable_const
  | coe b =>
    classical
    have : ind (b : WithTop ℝ) = (Ioi b).indicator fun _ => (1 : ℝ) := by
      funext x
      by_cases h : b < x
      · rw [ind_lt h, indicator_of_mem (show x ∈ Ioi b from h)]
      · rw [ind_ge (not_lt.mp h), indicator_of_notMem (show x ∉ Ioi b from h)]
    rw [this]
    exact measurable_const.indicator measurableSet_Ioi

theorem ind_bound (b : WithTop ℝ) (x : ℝ) : ‖ind b x‖ ≤ 1 := by
  induction b using WithTop.recTopCoe with
  | top => simp
  | coe b =>
    by_cases h : b < x
    · rw [ind_lt h]; simp
    · rw [ind_ge (not_lt.mp h)]; simp

variable (mu s)

theorem ind_integrable (b : WithTop ℝ) : Integrable (ind b) (gaussianReal mu (s ^ 2).toNNReal) :=
  (integrable_const (1 : ℝ)).mono' (ind_meas b).aestronglyMeasurable (Filter.Eventually.of_forall fun x => ind_bound b x)

theorem id_integrable : Integrable (fun x : ℝ => x) (gaussianReal mu (s ^ 2).toNNReal) :=
  (memLp_id_gaussianReal 1).integrable le_rfl

theorem ind_mul_integrable (b : WithTop ℝ) (c : ℝ) : Integrable (fun x => ind b x * (x - c)) (gaussianReal mu (s ^ 2).toNNReal) :=
  ((id_integrable mu s).sub (integrable_const c)).bdd_mul (c := 1) (ind_meas b).aestronglyMeasurable (Filter.Eventually.of_forall fun x => ind_bound b x)

variable {s}

theorem int_ind (hs : 0 < s) (b : WithTop ℝ) : ∫ x, ind b x ∂(gaussianReal mu (s ^ 2).toNNReal) = 1 - cdfAt Consts.exact mu s b := by
  induction b using WithTop.recTopCoe with
  | top => simp [cdfAt]
  | coe b =>
    have h := probAtLeast_eq mu (pow_pos hs 2) b
    rw [Real.sqrt_sq hs.le] at h
    have hne : (s ^ 2).toNNReal ≠ 0 := by
      rw [Ne, Real.toNNReal_eq_zero, not_le]
      exact pow_pos hs 2
    have : NullSingletonClass (gaussianReal mu (s ^ 2).toNNReal) := nullSingletonClass_gaussianReal hne
    have hi : ∫ x, ind (b : WithTop ℝ) x ∂(gaussianReal mu (s ^ 2).toNNReal) = (gaussianReal mu (s ^ 2).toNNReal).real (Ioi b) := by
      classical
      have : ind (b : WithTop ℝ) = (Ioi b).indicator fun _ => (1 : ℝ) := by
        funext x
        by_cases h : b < x
        · rw [ind_lt h, indicator_of_mem (show x ∈ Ioi b from h)]
        · rw [ind_ge (not_lt.mp h), indicator_of_notMem (show x ∉ Ioi b from h)]
      rw [this, integral_indicator measurableSet_Ioi]
      simp
    have hr : (gaussianReal mu (s ^ 2).toNNReal).real (Ioi b) = (gaussianReal mu (s ^ 2).toNNReal).real (Ici b) :=
      measureReal_congr Ioi_ae_eq_Ici
    rw [hi, hr, show (gaussianReal mu (s ^ 2).toNNReal).real (Ici b) = probAtLeast mu (s ^ 2) b from rfl, h]
    show _ = 1 - gausscdf Consts.exact ((b - mu) / s)
    rw [gausscdf_exact, ← neg_div, neg_sub]
    ring

theorem int_ind_mul (hs : 0 < s) (b : WithTop ℝ) (c : ℝ) :
    ∫ x, ind b x * (x - c) ∂(gaussianReal mu (s ^ 2).toNNReal) = exipsi Consts.exact c b mu s - exipsi Consts.exact c ⊤ mu s := by
  induction b using WithTop.recTopCoe with
  | top => simp
  | coe b =>
    have h := expectedExcess_eq mu (pow_pos hs 2) b
    rw [Real.sqrt_sq hs.le] at h
    have hf : (fun x => ind (b : WithTop ℝ) x * (x - c)) = fun x => max 0 (x - b) + (b - c) * ind (b : WithTop ℝ) x := by
      funext x
      by_cases hx : b < x
      · rw [ind_lt hx, max_eq_right (sub_nonneg.mpr hx.le)]; ring
      · rw [ind_ge (not_lt.mp hx), max_eq_left (sub_nonpos.mpr (not_lt.mp hx))]; ring
    have hI : Integrable (fun x => max 0 (x - b)) (gaussianReal mu (s ^ 2).toNNReal) := by
      have := ind_mul_integrable mu s (b : WithTop ℝ) b
      refine this.congr (Filter.Eventually.of_forall fun x => ?_)
      show ind (b : WithTop ℝ) x * (x - b) = max 0 (x - b)
      by_cases hx : b < x
      · rw [ind_lt hx, max_eq_right (sub_nonneg.mpr hx.le)]; ring
      · rw [ind_ge (not_lt.mp hx), max_eq_left (sub_nonpos.mpr (not_lt.mp hx))]; ring
    rw [hf, integral_add hI ((ind_integrable mu s _).const_mul _), integral_const_mul, int_ind mu hs]
    rw [show ∫ x, max 0 (x - b) ∂(gaussianReal mu (s ^ 2).toNNReal) = expectedExcess mu (s ^ 2) b from rfl, h]
    simp only [exipsi, cdfAt, pdfAt]
    rw [gausscdf_exact, gausspdf_exact, ← phi_neg ((b - mu) / s), ← neg_div, neg_sub]
    ring

/-- Difference of two indicators, integrated. -/
theorem int_cell0 (hs : 0 < s) (lo hi : WithTop ℝ) :
    ∫ x, (ind lo x - ind hi x) ∂(gaussianReal mu (s ^ 2).toNNReal) = cdfAt Consts.exact mu s hi - cdfAt Consts.exact mu s lo := by
  rw [integral_sub (ind_integrable mu s _) (ind_integrable mu s _), int_ind mu hs, int_ind mu hs]
  ring

theorem int_cell1 (hs : 0 < s) (lo hi : WithTop ℝ) (c : ℝ) :
    ∫ x, (ind lo x - ind hi x) * (x - c) ∂(gaussianReal mu (s ^ 2).toNNReal) = exipsi Consts.exact c lo mu s - exipsi Consts.exact c hi mu s := by
  simp only [sub_mul (ind lo _)]
  rw [integral_sub (ind_mul_integrable mu s _ _) (ind_mul_integrable mu s _ _), int_ind_mul mu hs, int_ind_mul mu hs]
  ring

theorem cell_integrable (lo hi : WithTop ℝ) (c d S : ℝ) :
    Integrable (fun x => (ind lo x - ind hi x) * (d * (x - c) - S)) (gaussianReal mu (s ^ 2).toNNReal) := by
  have h1 := ((ind_mul_integrable mu s lo c).sub (ind_mul_integrable mu s hi c)).const_mul d
  have h2 := ((ind_integrable mu s lo).sub (ind_integrable mu s hi)).const_mul S
  refine (h1.sub h2).congr (Filter.Eventually.of_forall fun x => ?_)
  simp only [Pi.sub_apply]
  ring

/-- The integral over a cell of the second objective. -/
theorem int_cell_y (hs : 0 < s) (lo hi : WithTop ℝ) (c d S : ℝ) :
    ∫ y, (ind lo y - ind hi y) * (d * (y - c) - S) ∂(gaussianReal mu (s ^ 2).toNNReal)
      = d * (exipsi Consts.exact c lo mu s - exipsi Consts.exact c hi mu s) - S * (cdfAt Consts.exact mu s hi - cdfAt Consts.exact mu s lo) := by
  have h1 := ((ind_mul_integrable mu s lo c).sub (ind_mul_integrable mu s hi c)).const_mul d
  have h2 := ((ind_integrable mu s lo).sub (ind_integrable mu s hi)).const_mul S
  rw [← int_cell1 mu hs, ← int_cell0 mu hs, ← integral_const_mul, ← integral_const_mul, ← integral_sub]
  · congr 1
    funext y
    ring
  · refine h1.congr (Filter.Eventually.of_forall fun x => ?_)
    simp only [Pi.sub_apply]
    ring
  · exact h2

end Limbo.Ehvi
