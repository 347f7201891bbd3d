import Mathlib.Analysis.Real.Pi.Bounds
import Verif.Lemmas.EhviRun

/-! The effect of the rounded constants of `ehvi_consts.h`. -/

namespace Limbo.Ehvi

open MeasureTheory ProbabilityTheory Finset

/-- Bound on the error of the distribution and density functions. -/
noncomputable def del : ℝ := 1e-11

theorem sqrt_two_bounds : (1.41421356237 : ℝ) ≤ √2 ∧ √2 ≤ 1.41421356238 := by
  constructor
  · exact Real.le_sqrt_of_sq_le (by norm_num)
  · rw [Real.sqrt_le_left (by norm_num)]
    norm_num

theorem inv_sqrt_bounds : |(0.3989422804 : ℝ) - 1 / √(2 * Real.pi)| ≤ del := by
  have h1 := Real.pi_gt_d20
  have h2 := Real.pi_lt_d20
  have hp : (0 : ℝ) < √(2 * Real.pi) := Real.sqrt_pos.2 (by positivity)
  have lo : (2.506628274 : ℝ) ≤ √(2 * Real.pi) := Real.le_sqrt_of_sq_le (by norm_num at *; linarith)
  have hi1 : √(2 * Real.pi) ≤ 2.50662827464 := by
    rw [Real.sqrt_le_left (by norm_num)]
    norm_num at *; linarith
  have lo1 : (2.50662827462 : ℝ) ≤ √(2 * Real.pi) := Real.le_sqrt_of_sq_le (by norm_num at *; linarith)
  rw [abs_le, del]
  constructor
  · have : 1 / √(2 * Real.pi) ≤ 1 / 2.50662827462 := one_div_le_one_div_of_le (by norm_num) lo1
    norm_num at *; linarith
  · have : 1 / (2.50662827464 : ℝ) ≤ 1 / √(2 * Real.pi) := one_div_le_one_div_of_le hp hi1
    norm_num at *; linarith

theorem pdf_err (z : ℝ) : |gausspdf Consts.source z - gausspdf Consts.exact z| ≤ del := by
  simp only [gausspdf, Consts.source, Consts.exact]
  rw [← sub_mul, abs_mul, abs_of_pos (Real.exp_pos _)]
  have he : Real.exp (-(z * z) / 2) ≤ 1 := Real.exp_le_one_iff.mpr (by nlinarith [mul_self_nonneg z])
  calc _ ≤ |(0.3989422804 : ℝ) - 1 / √(2 * Real.pi)| * 1 := mul_le_mul_of_nonneg_left he (abs_nonneg _)
    _ ≤ del := by rw [mul_one]; exact inv_sqrt_bounds

theorem erf_err (z : ℝ) : |erf (z / 1.41421356237) - erf (z / √2)| ≤ 2 * del := by
  have ⟨hl, hu⟩ := sqrt_two_bounds
  have h2 : (0 : ℝ) < √2 := by linarith [show (0 : ℝ) < 1.41421356237 by norm_num]
  set u := z / √2 with hu'
  set v := z / (1.41421356237 : ℝ) with hv'
  have hz : z = u * √2 := by rw [hu']; field_simp
  have hvu : v = u * (√2 / 1.41421356237) := by rw [hv', hz]; ring
  set q := √2 / (1.41421356237 : ℝ) with hq
  have hq1 : 1 ≤ q := by rw [hq, le_div_iff₀ (by norm_num)]; linarith
  have hq2 : q - 1 ≤ del := by
    rw [hq, sub_le_iff_le_add, div_le_iff₀ (by norm_num), del]
    norm_num at *; linarith
  have hint : ∀ a b : ℝ, IntervalIntegrable (fun t : ℝ => Real.exp (-t ^ 2)) volume a b := fun a b =>
    (by fun_prop : Continuous fun t : ℝ => Real.exp (-t ^ 2)).intervalIntegrable a b
  have hd : erf v - erf u = 2 / √Real.pi * ∫ t in u..v, Real.exp (-t ^ 2) := by
    unfold erf
    rw [← mul_sub, intervalIntegral.integral_interval_sub_left (hint _ _) (hint _ _)]
  have hb : ∀ t ∈ Set.uIoc u v, ‖Real.exp (-t ^ 2)‖ ≤ Real.exp (-u ^ 2) := by
    intro t ht
    rw [Real.norm_of_nonneg (Real.exp_pos _).le]
    apply Real.exp_le_exp.mpr
    rw [neg_le_neg_iff]
    rcases le_total 0 u with h0 | h0
    · have : u ≤ v := by rw [hvu]; nlinarith
      rw [Set.uIoc_of_le this] at ht
      nlinarith [ht.1]
    · have : v ≤ u := by rw [hvu]; nlinarith
      rw [Set.uIoc_of_ge this] at ht
      nlinarith [ht.2]
  have hI := intervalIntegral.norm_integral_le_of_norm_le_const hb
  rw [Real.norm_eq_abs] at hI
  have hvu2 : |v - u| = |u| * (q - 1) := by
    rw [hvu, show u * q - u = u * (q - 1) by ring, abs_mul, abs_of_nonneg (sub_nonneg.mpr hq1)]
  have he : Real.exp (-u ^ 2) * |u| ≤ 1 := by
    have h1 : Real.exp (-u ^ 2) ≤ 1 / (1 + u ^ 2) := by
      rw [Real.exp_neg, ← one_div]
      exact one_div_le_one_div_of_le (by positivity) (by linarith [Real.add_one_le_exp (u ^ 2)])
    have h3 : |u| ≤ 1 + u ^ 2 := by rw [← sq_abs]; nlinarith [sq_nonneg (|u| - 1), abs_nonneg u]
    calc Real.exp (-u ^ 2) * |u| ≤ 1 / (1 + u ^ 2) * (1 + u ^ 2) := mul_le_mul h1 h3 (abs_nonneg _) (by positivity)
      _ = 1 := by field_simp
  have hI2 : |∫ t in u..v, Real.exp (-t ^ 2)| ≤ del := by
    refine hI.trans ?_
    rw [hvu2, ← mul_assoc]
    calc _ ≤ 1 * (q - 1) := mul_le_mul_of_nonneg_right he (sub_nonneg.mpr hq1)
      _ ≤ del := by rw [one_mul]; exact hq2
  have hpi : 1 ≤ √Real.pi := by
    rw [Real.one_le_sqrt]
    linarith [Real.pi_gt_three]
  rw [hd, abs_mul, abs_of_nonneg (by positivity)]
  have : 2 / √Real.pi ≤ 2 := div_le_self (by norm_num) hpi
  exact mul_le_mul this hI2 (abs_nonneg _) (by norm_num)

theorem cdf_err (z : ℝ) : |gausscdf Consts.source z - gausscdf Consts.exact z| ≤ del := by
  simp only [gausscdf, Consts.source, Consts.exact]
  have h := erf_err z
  rw [show (0.5 : ℝ) * (1 + erf (z / 1.41421356237)) - 0.5 * (1 + erf (z / √2)) = 0.5 * (erf (z / 1.41421356237) - erf (z / √2)) by ring, abs_mul,
    abs_of_pos (by norm_num)]
  linarith

theorem del_pos : 0 < del := by norm_num [del]

theorem pdfAt_err (mu s : ℝ) (b : WithTop ℝ) : |pdfAt Consts.source mu s b - pdfAt Consts.exact mu s b| ≤ del := by
  induction b using WithTop.recTopCoe with
  | top => simp only [pdfAt, sub_self, abs_zero]; exact del_pos.le
  | coe b => exact pdf_err _

theorem cdfAt_err (mu s : ℝ) (b : WithTop ℝ) : |cdfAt Consts.source mu s b - cdfAt Consts.exact mu s b| ≤ del := by
  induction b using WithTop.recTopCoe with
  | top => simp only [cdfAt, sub_self, abs_zero]; exact del_pos.le
  | coe b => exact cdf_err _

theorem cdf_range (z : ℝ) : 0 ≤ gausscdf Consts.exact z ∧ gausscdf Consts.exact z ≤ 1 := by
  rw [gausscdf_exact, ← gauss_tail z]
  exact ⟨sub_nonneg.mpr measureReal_le_one, by linarith [measureReal_nonneg (μ := gaussianReal 0 1) (s := Set.Ici z)]⟩

theorem cdfAt_range (mu s : ℝ) (b : WithTop ℝ) : 0 ≤ cdfAt Consts.exact mu s b ∧ cdfAt Consts.exact mu s b ≤ 1 := by
  induction b using WithTop.recTopCoe with
  | top => simp [cdfAt]
  | coe b => exact cdf_range _

theorem pdfAt_range (mu s : ℝ) (b : WithTop ℝ) : 0 ≤ pdfAt Consts.exact mu s b ∧ pdfAt Consts.exact mu s b ≤ 1 / 2 := by
  induction b using WithTop.recTopCoe with
  | top => simp [pdfAt]
  | coe b =>
    simp only [pdfAt, gausspdf_exact]
    refine ⟨(phi_pos _).le, ?_⟩
    unfold Acqui.phi
    have hp : (2 : ℝ) ≤ √(2 * Real.pi) := Real.le_sqrt_of_sq_le (by linarith [Real.pi_gt_three])
    have he : Real.exp (-0.5 * ((b - mu) / s) ^ 2) ≤ 1 := Real.exp_le_one_iff.mpr (by nlinarith [sq_nonneg ((b - mu) / s)])
    exact div_le_div₀ (by norm_num) he (by norm_num) hp

/-- The exact difference of `exipsi` values. -/
theorem psi_bound {mu s f D : ℝ} (hs : 0 < s) (hf : |f - mu| ≤ D) (lo hi : WithTop ℝ) :
    |exipsi Consts.exact f lo mu s - exipsi Consts.exact f hi mu s| ≤ s + D := by
  have p1 := pdfAt_range mu s lo
  have p2 := pdfAt_range mu s hi
  have c1 := cdfAt_range mu s lo
  have c2 := cdfAt_range mu s hi
  have hp : |pdfAt Consts.exact mu s lo - pdfAt Consts.exact mu s hi| ≤ 1 := abs_le.mpr ⟨by linarith, by linarith⟩
  have hc : |cdfAt Consts.exact mu s lo - cdfAt Consts.exact mu s hi| ≤ 1 := abs_le.mpr ⟨by linarith, by linarith⟩
  unfold exipsi
  rw [show s * pdfAt Consts.exact mu s lo + (f - mu) * cdfAt Consts.exact mu s lo - (s * pdfAt Consts.exact mu s hi + (f - mu) * cdfAt Consts.exact mu s hi)
    = s * (pdfAt Consts.exact mu s lo - pdfAt Consts.exact mu s hi) + (f - mu) * (cdfAt Consts.exact mu s lo - cdfAt Consts.exact mu s hi) by ring]
  refine (abs_add_le _ _).trans ?_
  rw [abs_mul, abs_mul, abs_of_pos hs]
  have e1 : s * |pdfAt Consts.exact mu s lo - pdfAt Consts.exact mu s hi| ≤ s * 1 := mul_le_mul_of_nonneg_left hp hs.le
  have e2 : |f - mu| * |cdfAt Consts.exact mu s lo - cdfAt Consts.exact mu s hi| ≤ D * 1 := mul_le_mul hf hc (abs_nonneg _) ((abs_nonneg _).trans hf)
  linarith

theorem exipsi_err {mu s f D : ℝ} (hs : 0 < s) (hf : |f - mu| ≤ D) (b : WithTop ℝ) :
    |exipsi Consts.source f b mu s - exipsi Consts.exact f b mu s| ≤ del * (s + D) := by
  unfold exipsi
  rw [show s * pdfAt Consts.source mu s b + (f - mu) * cdfAt Consts.source mu s b - (s * pdfAt Consts.exact mu s b + (f - mu) * cdfAt Consts.exact mu s b)
    = s * (pdfAt Consts.source mu s b - pdfAt Consts.exact mu s b) + (f - mu) * (cdfAt Consts.source mu s b - cdfAt Consts.exact mu s b) by ring]
  refine (abs_add_le _ _).trans ?_
  rw [abs_mul, abs_mul, abs_of_pos hs]
  have e1 := mul_le_mul_of_nonneg_left (pdfAt_err mu s b) hs.le
  have e2 := mul_le_mul hf (cdfAt_err mu s b) (abs_nonneg _) ((abs_nonneg _).trans hf)
  linarith

theorem psi_err {mu s f D : ℝ} (hs : 0 < s) (hf : |f - mu| ≤ D) (lo hi : WithTop ℝ) :
    |(exipsi Consts.source f lo mu s - exipsi Consts.source f hi mu s) - (exipsi Consts.exact f lo mu s - exipsi Consts.exact f hi mu s)|
      ≤ 2 * del * (s + D) := by
  have h1 := exipsi_err hs hf lo
  have h2 := exipsi_err hs hf hi
  rw [abs_le] at *
  constructor <;> linarith [h1.1, h1.2, h2.1, h2.2]

theorem prod_err {a b a' b' A B e : ℝ} (hA : 0 ≤ A) (hB : 0 ≤ B) (he : 0 ≤ e) (he1 : e ≤ 1 / 2) (ha : |a| ≤ A) (hb : |b| ≤ B)
    (ha' : |a' - a| ≤ e * A) (hb' : |b' - b| ≤ e * B) : |a' * b' - a * b| ≤ 5 / 2 * e * (A * B) := by
  rw [show a' * b' - a * b = (a' - a) * (b' - b) + (a' - a) * b + a * (b' - b) by ring]
  refine (abs_add_three _ _ _).trans ?_
  rw [abs_mul, abs_mul, abs_mul]
  have e1 : |a' - a| * |b' - b| ≤ (e * A) * (e * B) := mul_le_mul ha' hb' (abs_nonneg _) (by positivity)
  have e2 : |a' - a| * |b| ≤ (e * A) * B := mul_le_mul ha' hb (abs_nonneg _) (by positivity)
  have e3 : |a| * |b' - b| ≤ A * (e * B) := mul_le_mul ha hb' (abs_nonneg _) hA
  have e4 : (e * A) * (e * B) ≤ 1 / 2 * (e * (A * B)) := by
    have : 0 ≤ e * (A * B) := by positivity
    nlinarith
  linarith

variable {X Y : ℕ → ℝ} {k : ℕ} {mu s D : ℝ × ℝ}

theorem smin_nonneg (h : Grid X Y k) {a j : ℕ} (hj : j ≤ k) : 0 ≤ smin X Y a j := by
  refine sum_nonneg fun m hm => ?_
  have := mem_Ico.mp hm
  exact mul_nonneg (sub_nonneg.mpr (h.xmono (by omega) (by omega))) (sub_nonneg.mpr (h.y m (by omega)))

theorem smin_le (h : Grid X Y k) {a j : ℕ} (haj : a ≤ j) (hj : j ≤ k) : smin X Y a j ≤ (X j - X a) * (Y a - Y j) := by
  have : smin X Y a j ≤ ∑ m ∈ Ico a j, (X j - X a) * (Y m - Y (m + 1)) := by
    refine sum_le_sum fun m hm => ?_
    have := mem_Ico.mp hm
    exact mul_le_mul_of_nonneg_right (by linarith [h.xmono (show m + 1 ≤ j by omega) hj]) (sub_nonneg.mpr (h.y m (by omega)))
  refine this.trans (le_of_eq ?_)
  rw [← mul_sum]
  congr 1
  have := sum_Ico_sub Y haj
  have e : ∑ m ∈ Ico a j, (Y m - Y (m + 1)) = -∑ m ∈ Ico a j, (Y (m + 1) - Y m) := by
    rw [← sum_neg_distrib]
    exact sum_congr rfl fun m _ => by ring
  rw [e, this]
  ring

theorem cvc_err (h : Grid X Y k) (h1 : 0 < s.1) (h2 : 0 < s.2) (hX : ∀ m ≤ k, |X m - mu.1| ≤ D.1) (hY : ∀ m ≤ k, |Y m - mu.2| ≤ D.2)
    {a j : ℕ} (haj : a ≤ j) (hj : j ≤ k) :
    |cvc Consts.source X Y k mu s a j - cvc Consts.exact X Y k mu s a j| ≤ 25 * del * ((s.1 + D.1) * (s.2 + D.2)) := by
  have hD1 : 0 ≤ D.1 := (abs_nonneg _).trans (hX 0 (Nat.zero_le _))
  have hD2 : 0 ≤ D.2 := (abs_nonneg _).trans (hY 0 (Nat.zero_le _))
  have hdel : 0 ≤ 2 * del := by linarith [del_pos]
  have hdel1 : 2 * del ≤ 1 / 2 := by norm_num [del]
  have S0 := smin_nonneg h (a := a) hj
  have S1 : smin X Y a j ≤ 4 * (D.1 * D.2) := by
    refine (smin_le h haj hj).trans ?_
    have x1 := abs_le.mp (hX a (haj.trans hj)); have x2 := abs_le.mp (hX j hj)
    have y1 := abs_le.mp (hY a (haj.trans hj)); have y2 := abs_le.mp (hY j hj)
    have := mul_le_mul (show X j - X a ≤ 2 * D.1 by linarith) (show Y a - Y j ≤ 2 * D.2 by linarith)
      (sub_nonneg.mpr (h.yanti haj hj)) (by linarith)
    linarith
  have p := prod_err (by linarith) (by linarith) hdel hdel1
    (psi_bound h1 (hX a (haj.trans hj)) (X j : ℝ) (xu X k j)) (psi_bound h2 (hY j hj) (Y a : ℝ) (yu Y a))
    (psi_err h1 (hX a (haj.trans hj)) (X j : ℝ) (xu X k j)) (psi_err h2 (hY j hj) (Y a : ℝ) (yu Y a))
  have cb : ∀ (m t : ℝ) (lo hi : WithTop ℝ), |cdfAt Consts.exact m t hi - cdfAt Consts.exact m t lo| ≤ 1 := fun m t lo hi => by
    have c1 := cdfAt_range m t lo
    have c2 := cdfAt_range m t hi
    exact abs_le.mpr ⟨by linarith, by linarith⟩
  have ce : ∀ (m t : ℝ) (lo hi : WithTop ℝ), |(cdfAt Consts.source m t hi - cdfAt Consts.source m t lo)
      - (cdfAt Consts.exact m t hi - cdfAt Consts.exact m t lo)| ≤ 2 * del * 1 := fun m t lo hi => by
    have c1 := abs_le.mp (cdfAt_err m t lo)
    have c2 := abs_le.mp (cdfAt_err m t hi)
    exact abs_le.mpr ⟨by linarith, by linarith⟩
  have q := prod_err zero_le_one zero_le_one hdel hdel1 (cb mu.1 s.1 (X j : ℝ) (xu X k j)) (cb mu.2 s.2 (Y a : ℝ) (yu Y a))
    (ce mu.1 s.1 (X j : ℝ) (xu X k j)) (ce mu.2 s.2 (Y a : ℝ) (yu Y a))
  have q' := mul_le_mul_of_nonneg_left q S0
  rw [← abs_of_nonneg S0, ← abs_mul, abs_of_nonneg S0] at q'
  have hq : smin X Y a j * (5 / 2 * (2 * del) * (1 * 1)) ≤ 20 * del * (D.1 * D.2) := by
    have := mul_le_mul_of_nonneg_right S1 (show 0 ≤ 5 / 2 * (2 * del) * (1 * 1) by linarith)
    linarith
  have hDD : D.1 * D.2 ≤ (s.1 + D.1) * (s.2 + D.2) := mul_le_mul (by linarith) (by linarith) hD2 (by linarith)
  have hDD' : 20 * del * (D.1 * D.2) ≤ 20 * del * ((s.1 + D.1) * (s.2 + D.2)) := mul_le_mul_of_nonneg_left hDD (by linarith)
  simp only [cvc, cellSum, gridCell]
  rw [abs_le] at p q' ⊢
  constructor
  · linarith [p.1, q'.2]
  · linarith [p.2, q'.1]

theorem sum_err {n : ℕ} {f g : ℕ → ℕ → ℝ} {E : ℝ} (h : ∀ a j, a ≤ j → j < n → |f a j - g a j| ≤ E) :
    |(∑ a ∈ range n, ∑ j ∈ Ico a n, max 0 (f a j)) - ∑ a ∈ range n, ∑ j ∈ Ico a n, max 0 (g a j)| ≤ (n * (n + 1) / 2 : ℝ) * E := by
  rw [← sum_sub_distrib]
  refine (abs_sum_le_sum_abs _ _).trans ?_
  have h1 : ∀ a ∈ range n, |∑ j ∈ Ico a n, max 0 (f a j) - ∑ j ∈ Ico a n, max 0 (g a j)| ≤ ((n : ℝ) - a) * E := by
    intro a ha
    rw [← sum_sub_distrib]
    refine (abs_sum_le_sum_abs _ _).trans ?_
    have : ∀ j ∈ Ico a n, |max 0 (f a j) - max 0 (g a j)| ≤ E := fun j hj => by
      have hj' := mem_Ico.mp hj
      refine le_trans ?_ (h a j hj'.1 hj'.2)
      have := abs_max_sub_max_le_max 0 (f a j) 0 (g a j)
      simpa using this
    refine (sum_le_card_nsmul _ _ _ this).trans (le_of_eq ?_)
    rw [Nat.card_Ico, nsmul_eq_mul, Nat.cast_sub (mem_range.mp ha).le]
  refine (sum_le_sum h1).trans (le_of_eq ?_)
  rw [← sum_mul]
  congr 1
  have hs : ∀ m : ℕ, (∑ a ∈ range m, ((n : ℝ) - a)) = n * m - m * (m - 1) / 2 := by
    intro m
    induction m with
    | zero => simp
    | succ m ih =>
      rw [sum_range_succ, ih]
      push_cast
      ring
  rw [hs]
  ring

theorem Xl_bound {P : List (ℝ × ℝ)} {r : ℝ × ℝ} {c d : ℝ} (h : ∀ p ∈ r :: P, |p.1 - c| ≤ d) {m : ℕ} (hm : m ≤ P.length) : |Xl r.1 P m - c| ≤ d := by
  have : Xl r.1 P m ∈ (r :: P).map Prod.fst := by
    rw [Xl, List.getD_eq_getElem _ _ (by simpa [Nat.lt_succ_iff] using hm)]
    exact List.getElem_mem _
  obtain ⟨p, hp, e⟩ := List.mem_map.mp this
  rw [← e]
  exact h p hp

theorem Yl_bound {P : List (ℝ × ℝ)} {r : ℝ × ℝ} {c d : ℝ} (h : ∀ p ∈ r :: P, |p.2 - c| ≤ d) {m : ℕ} (hm : m ≤ P.length) : |Yl r.2 P m - c| ≤ d := by
  have : Yl r.2 P m ∈ P.map Prod.snd ++ [r.2] := by
    rw [Yl, List.getD_eq_getElem _ _ (by simpa [Nat.lt_succ_iff] using hm)]
    exact List.getElem_mem _
  rcases List.mem_append.mp this with h' | h'
  · obtain ⟨p, hp, e⟩ := List.mem_map.mp h'
    rw [← e]
    exact h p (List.mem_cons_of_mem _ hp)
  · rw [List.mem_singleton.mp h']
    exact h r List.mem_cons_self

theorem ehvi2d_err {sort : List (ℝ × ℝ) → List (ℝ × ℝ)} (hsort : SortsByFirst sort) {P : List (ℝ × ℝ)} {r : ℝ × ℝ} (hn : MutuallyNonDominated P)
    (hr : ∀ p ∈ P, r.1 ≤ p.1 ∧ r.2 ≤ p.2) (h1 : 0 < s.1) (h2 : 0 < s.2) (hD : ∀ p ∈ r :: P, |p.1 - mu.1| ≤ D.1 ∧ |p.2 - mu.2| ≤ D.2) :
    ∃ v, ehvi2d sort Consts.source P r mu s = some v ∧ |v - expectedHvImprovement r P mu (s.1 ^ 2, s.2 ^ 2)|
      ≤ ((P.length + 1) * (P.length + 2) / 2 : ℝ) * (25e-11 * ((s.1 + D.1) * (s.2 + D.2))) := by
  refine ⟨_, ehvi2d_sum _ _ _ _ _ _, ?_⟩
  rw [expected_sum hsort hn hr h1 h2]
  have hp := hsort.perm P
  have hg := grid_of_stairs (stairs_sort hsort hn hr)
  have hD' : ∀ p ∈ r :: sort P, |p.1 - mu.1| ≤ D.1 ∧ |p.2 - mu.2| ≤ D.2 := fun p h => hD p ((hp.cons r).mem_iff.mp h)
  have := sum_err (n := (sort P).length + 1) (f := cvc Consts.source (Xl r.1 (sort P)) (Yl r.2 (sort P)) (sort P).length mu s)
    (g := cvc Consts.exact (Xl r.1 (sort P)) (Yl r.2 (sort P)) (sort P).length mu s) (E := 25 * del * ((s.1 + D.1) * (s.2 + D.2)))
    fun a j haj hj => cvc_err hg h1 h2 (fun m hm => Xl_bound (fun p h => (hD' p h).1) hm) (fun m hm => Yl_bound (fun p h => (hD' p h).2) hm) haj (by omega)
  refine this.trans (le_of_eq ?_)
  rw [hp.length_eq, del]
  push_cast
  ring

end Limbo.Ehvi
