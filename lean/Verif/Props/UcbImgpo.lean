import Mathlib.NumberTheory.ZetaValues
import Verif.Model.UcbImgpo
import Verif.Props.Acqui

/-!
C100: the upper confidence bounds of `UCB_IMGPO` and `GP_UCB`: values, and how likely the objective is above them at any of the points asked for.
-/

namespace Limbo

open MeasureTheory ProbabilityTheory Acqui Set Filter Topology

/-! ### Gaussian tails -/

theorem gauss_half : ∫ u in Ioi (0 : ℝ), phi u = 1 / 2 := by
  have h1 : (∫ u in Ioi (0 : ℝ), phi u) = (∫ u in Ioi (0 : ℝ), Real.exp (-(1 / 2) * u ^ 2)) * (√(2 * Real.pi))⁻¹ := by
    rw [← integral_mul_const]
    congr 1
    funext u
    unfold phi
    rw [div_eq_mul_inv]
    norm_num
  rw [h1, integral_gaussian_Ioi]
  have hp : (0 : ℝ) < √(2 * Real.pi) := Real.sqrt_pos.2 (by positivity)
  rw [show Real.pi / (1 / 2) = 2 * Real.pi by ring]
  field_simp

theorem gauss_tail_le {b : ℝ} (hb : 0 ≤ b) : capPhi (-b) ≤ 1 / 2 * Real.exp (-(b ^ 2 / 2)) := by
  rw [capPhi_eq, neg_neg]
  have hs : (∫ u in Ioi b, phi u) = ∫ u in Ioi (0 : ℝ), phi (u + b) := by
    have := (measurePreserving_add_right volume b).setIntegral_preimage_emb (measurableEmbedding_addRight b) phi (Ioi b)
    rw [← this]
    congr 2
    ext u
    simp
  rw [hs, ← gauss_half, mul_comm, ← integral_const_mul]
  refine setIntegral_mono_on (phi_integrable.comp_add_right b).integrableOn (phi_integrable.const_mul _).integrableOn measurableSet_Ioi fun u hu => ?_
  unfold phi
  rw [← mul_div_assoc, ← Real.exp_add]
  refine div_le_div_of_nonneg_right (Real.exp_le_exp.2 ?_) (Real.sqrt_nonneg _)
  have := mul_nonneg (le_of_lt hu) hb
  nlinarith

/-- Probability of exceeding the mean by `c` standard deviations. -/
theorem probAbove_le (m : ℝ) {var c : ℝ} (hv : 0 ≤ var) (hc : 0 ≤ c) {b : ℝ} (hb : m + c * √var ≤ b) :
    probAbove m var b ≤ 1 / 2 * Real.exp (-(c ^ 2 / 2)) := by
  rcases hv.eq_or_lt with rfl | hv
  · have : probAbove m 0 b = 0 := by
      unfold probAbove
      rw [Real.toNNReal_zero, gaussianReal_zero_var, Measure.real, Measure.dirac_apply' _ measurableSet_Ioi]
      have : m ∉ Ioi b := by
        rw [Real.sqrt_zero, mul_zero, add_zero] at hb
        exact not_lt.2 hb
      simp [this]
    rw [this]
    positivity
  · have h1 : probAbove m var b ≤ probAtLeast m var (m + c * √var) :=
      measureReal_mono (fun x hx => le_trans hb (le_of_lt hx))
    have hs : 0 < √var := Real.sqrt_pos.2 hv
    rw [probAtLeast_eq m hv, show (m - (m + c * √var)) / √var = -c by field_simp; ring] at h1
    exact h1.trans (gauss_tail_le hc)

/-- Confidence widths with a summable failure probability. -/
theorem failure_sum {mu var u c : ℕ → ℝ} {k : ℝ} (hk : 0 ≤ k) (hv : ∀ t, 0 ≤ var t) (hc : ∀ t, 0 ≤ c t)
    (hu : ∀ t, mu t + c t * √(var t) ≤ u t) (hexp : ∀ t, Real.exp (-(c t ^ 2 / 2)) ≤ k / ((t + 1 : ℕ) : ℝ) ^ 2) :
    Summable (fun t => probAbove (mu t) (var t) (u t)) ∧ ∑' t, probAbove (mu t) (var t) (u t) ≤ k * Real.pi ^ 2 / 12 := by
  have hz : HasSum (fun t : ℕ => k / 2 * (1 / ((t + 1 : ℕ) : ℝ) ^ 2)) (k / 2 * (Real.pi ^ 2 / 6)) := by
    refine HasSum.mul_left _ ?_
    have := (hasSum_nat_add_iff' 1).2 hasSum_zeta_two
    simpa using this
  have hle : ∀ t, probAbove (mu t) (var t) (u t) ≤ k / 2 * (1 / ((t + 1 : ℕ) : ℝ) ^ 2) := by
    intro t
    refine (probAbove_le (mu t) (hv t) (hc t) (hu t)).trans ?_
    have := hexp t
    calc 1 / 2 * Real.exp (-(c t ^ 2 / 2)) ≤ 1 / 2 * (k / ((t + 1 : ℕ) : ℝ) ^ 2) := by linarith
      _ = _ := by ring
  have hnn : ∀ t, 0 ≤ probAbove (mu t) (var t) (u t) := fun t => measureReal_nonneg
  have hsum := Summable.of_nonneg_of_le hnn hle hz.summable
  refine ⟨hsum, ?_⟩
  calc _ ≤ ∑' t : ℕ, k / 2 * (1 / ((t + 1 : ℕ) : ℝ) ^ 2) := hsum.tsum_le_tsum hle hz.summable
    _ = k / 2 * (Real.pi ^ 2 / 6) := hz.tsum_eq
    _ = _ := by ring

/-! ### UCB_IMGPO -/

theorem imgpoVarsigma_fin {nu : ℝ} (h0 : 0 < nu) {M : ℕ} (h1 : 1 ≤ Real.pi ^ 2 * (M : ℝ) ^ 2 / (12 * nu)) :
    imgpoVarsigma nu M = XR.fin √(2 * Real.log (Real.pi ^ 2 * (M : ℝ) ^ 2 / (12 * nu))) := by
  unfold imgpoVarsigma
  rw [show XR.fin 12 * XR.fin nu = XR.fin (12 * nu) from rfl, XR.acqui_fin_div_fin _ _ (by linarith), xlog_pos (by linarith),
    show XR.fin 2 * XR.fin (Real.log (Real.pi ^ 2 * (M : ℝ) ^ 2 / (12 * nu))) = XR.fin (2 * Real.log (Real.pi ^ 2 * (M : ℝ) ^ 2 / (12 * nu))) from rfl,
    XR.acqui_sqrt_fin (by have := Real.log_nonneg h1; linarith)]

theorem imgpo_arg {nu : ℝ} (h0 : 0 < nu) (h1 : nu ≤ 4 / 5) {M : ℕ} (hM : 1 ≤ M) : 1 ≤ Real.pi ^ 2 * (M : ℝ) ^ 2 / (12 * nu) := by
  rw [le_div_iff₀ (by linarith)]
  have hp : (3.14 : ℝ) < Real.pi := Real.pi_gt_d2
  have hm : (1 : ℝ) ≤ M := by exact_mod_cast hM
  have hm2 : (1 : ℝ) ≤ (M : ℝ) ^ 2 := one_le_pow₀ hm
  have hp2 : (9.6 : ℝ) ≤ Real.pi ^ 2 := by nlinarith
  nlinarith

/-- **C100**: on a fitted GP, `UCB_IMGPO` is the aggregated posterior mean plus `sqrt(2 log(π² M² / (12 nu))) + 0.2` posterior standard deviations,
for every `M ≥ 1` and every `nu` up to `0.8`. -/
theorem C100_ucb_imgpo {E : GpEnv} {A : GpAbs} {st : GpState E} {din dout : Nat} (hE : LawfulEnv E) (hr : GpReach E A st) (hA : A.UpToDate) (hd : DataSet A.xs A.ys din dout) (afun : List ℝ → ℝ)
    {nu : ℝ} (h0 : 0 < nu) (h1 : nu ≤ 4 / 5) {M : ℕ} (hM : 1 ≤ M) {v : List ℝ} (hv : v.length = din) :
    ucbImgpo (Gp.view st) afun nu M v = some (XR.fin
      (afun (predMean st A dout v) + (√(2 * Real.log (Real.pi ^ 2 * (M : ℝ) ^ 2 / (12 * nu))) + 0.2) * √(predVar st A v))) := by
  unfold ucbImgpo
  rw [view_query hE hr hA hd v]
  simp only [Option.map_some, Option.some.injEq]
  rw [imgpoVarsigma_fin h0 (imgpo_arg h0 h1 hM), XR.acqui_sqrt_fin (predVar_nonneg hE hr hA hd hv)]
  rfl

/-- **C100**: what the bound is for.  Suppose the `M`-th evaluation of the acquisition function, for `M = 1, 2, …`, is made at any point and with any model,
whose prediction there is normal with mean `mu` and variance `var`.  Then the probabilities that the objective is above the returned bound
add up, over all evaluations ever made, to at most `nu`. -/
theorem C100_ucb_imgpo_failure_probability {nu : ℝ} (h0 : 0 < nu) (h1 : nu ≤ 4 / 5) (m : ℕ → AModel) (v : ℕ → List ℝ) (mu var u : ℕ → ℝ)
    (hq : ∀ t, (m t).query (v t) = some ([mu t], var t)) (hvar : ∀ t, 0 ≤ var t)
    (hu : ∀ t, ucbImgpo (m t) (fun l => l.getD 0 0) nu (t + 1) (v t) = some (XR.fin (u t))) :
    Summable (fun t => probAbove (mu t) (var t) (u t)) ∧ ∑' t, probAbove (mu t) (var t) (u t) ≤ nu := by
  have key := failure_sum (mu := mu) (var := var) (u := u) (k := 12 * nu / Real.pi ^ 2)
    (c := fun t => √(2 * Real.log (Real.pi ^ 2 * ((t + 1 : ℕ) : ℝ) ^ 2 / (12 * nu)))) (by positivity) hvar (fun t => Real.sqrt_nonneg _)
    (fun t => ?_) (fun t => ?_)
  · refine ⟨key.1, key.2.trans (le_of_eq ?_)⟩
    have : Real.pi ^ 2 ≠ 0 := by positivity
    field_simp
  · have := hu t
    unfold ucbImgpo at this
    rw [hq t, Option.map_some, Option.some.injEq, imgpoVarsigma_fin h0 (imgpo_arg h0 h1 (Nat.le_add_left 1 t)), XR.acqui_sqrt_fin (hvar t)] at this
    have e : mu t + (√(2 * Real.log (Real.pi ^ 2 * ((t + 1 : ℕ) : ℝ) ^ 2 / (12 * nu))) + 0.2) * √(var t) = u t := Xt.fin.inj this
    rw [← e]
    have := Real.sqrt_nonneg (var t)
    nlinarith
  · have ha := imgpo_arg h0 h1 (Nat.le_add_left 1 t)
    have hl := Real.log_nonneg ha
    rw [Real.sq_sqrt (by linarith), mul_div_cancel_left₀ _ (two_ne_zero), Real.exp_neg, Real.exp_log (by linarith)]
    apply le_of_eq
    have : Real.pi ^ 2 ≠ 0 := by positivity
    have : ((t + 1 : ℕ) : ℝ) ^ 2 ≠ 0 := by positivity
    field_simp

/-- **C100** needs the upper limit on `nu`: for `nu = 0.9`, an admissible probability, the first bound (`M = 1`) is NaN at every point. -/
theorem C100_ucb_imgpo_nan (m : AModel) (afun : List ℝ → ℝ) {v : List ℝ} {r : List ℝ × ℝ} (hq : m.query v = some r) :
    ucbImgpo m afun 0.9 1 v = some (Xt.nan : Xt ℝ) := by
  unfold ucbImgpo
  rw [hq]
  simp only [Option.map_some, Option.some.injEq]
  have hp : Real.pi < 3.15 := Real.pi_lt_d2
  have hp0 := Real.pi_pos
  have hlt : Real.pi ^ 2 * ((1 : ℕ) : ℝ) ^ 2 / (12 * 0.9) < 1 := by
    rw [div_lt_one (by norm_num)]
    push_cast
    nlinarith
  have hpos : 0 < Real.pi ^ 2 * ((1 : ℕ) : ℝ) ^ 2 / (12 * 0.9) := by positivity
  have hneg := Real.log_neg hpos hlt
  have hs : imgpoVarsigma 0.9 1 = (Xt.nan : Xt ℝ) := by
    unfold imgpoVarsigma
    rw [show XR.fin 12 * XR.fin 0.9 = XR.fin (12 * 0.9) from rfl, XR.acqui_fin_div_fin _ _ (by norm_num), xlog_pos hpos]
    show (if 2 * Real.log _ < 0 then (Xt.nan : Xt ℝ) else _) = _
    rw [if_pos (by linarith)]
  rw [hs]
  rfl

/-! ### GP_UCB -/

/-- **C100**: the same for `GP_UCB`: if iteration `t = 1, 2, …` evaluates it at any point of dimension `d ≥ 0`, the probabilities that the
objective is above the bound add up to at most `delta / 4`. -/
theorem C100_gp_ucb_failure_probability {delta : ℝ} (h0 : 0 < delta) (h1 : delta ≤ 1) (m : ℕ → AModel) (v : ℕ → List ℝ) (mu var u : ℕ → ℝ)
    (hq : ∀ t, (m t).query (v t) = some ([mu t], var t)) (hvar : ∀ t, 0 ≤ var t)
    (hu : ∀ t, gpUcb (m t) (fun l => l.getD 0 0) delta (t + 1) (v t) false = some (XR.fin (u t))) :
    Summable (fun t => probAbove (mu t) (var t) (u t)) ∧ ∑' t, probAbove (mu t) (var t) (u t) ≤ delta / 4 := by
  have key := failure_sum (mu := mu) (var := var) (u := u) (k := 3 * delta / Real.pi ^ 2)
    (c := fun t => √(2 * Real.log (((t + 1 : ℕ) : ℝ) ^ (((m t).dimIn : ℝ) / 2 + 2) * Real.pi ^ 2 / (3 * delta)))) (by positivity) hvar
    (fun t => Real.sqrt_nonneg _) (fun t => ?_) (fun t => ?_)
  · refine ⟨key.1, key.2.trans (le_of_eq ?_)⟩
    have : Real.pi ^ 2 ≠ 0 := by positivity
    field_simp
    norm_num
  · have := hu t
    have hb := beta_arg (d := (m t).dimIn) (Nat.le_add_left 1 t) h0 h1
    unfold gpUcb at this
    rw [hq t] at this
    simp only [Bool.false_eq_true, if_false, Option.map_some, Option.some.injEq] at this
    rw [gpUcbBeta_fin h0 h1 (Nat.le_add_left 1 t), XR.acqui_sqrt_fin (hvar t)] at this
    exact le_of_eq (Xt.fin.inj this)
  · have hb := beta_arg (d := (m t).dimIn) (Nat.le_add_left 1 t) h0 h1
    have hl := Real.log_nonneg hb.le
    rw [Real.sq_sqrt (by linarith), mul_div_cancel_left₀ _ (two_ne_zero), Real.exp_neg, Real.exp_log (by linarith), inv_div]
    have ht : (1 : ℝ) ≤ ((t + 1 : ℕ) : ℝ) := by push_cast; linarith [(Nat.cast_nonneg t : (0 : ℝ) ≤ t)]
    have hpow : ((t + 1 : ℕ) : ℝ) ^ 2 ≤ ((t + 1 : ℕ) : ℝ) ^ (((m t).dimIn : ℝ) / 2 + 2) := by
      rw [← Real.rpow_two]
      exact Real.rpow_le_rpow_of_exponent_le ht (by have := (Nat.cast_nonneg (m t).dimIn : (0 : ℝ) ≤ _); linarith)
    have hp2 : 0 < ((t + 1 : ℕ) : ℝ) ^ 2 := by positivity
    rw [div_div, mul_comm (Real.pi ^ 2)]
    exact div_le_div_of_nonneg_left (by linarith) (by positivity) (mul_le_mul_of_nonneg_right hpow (by positivity))

/-- the hypotheses of the last theorems: a model that predicts `N(1, 1)` everywhere -/
example : ∃ u : ℕ → ℝ, ∀ t, ucbImgpo ⟨fun _ => some ([1], 1), fun _ => some [1], [], 1⟩ (fun l => l.getD 0 0) 0.05 (t + 1) [0] = some (XR.fin (u t)) := by
  refine ⟨fun t => 1 + (√(2 * Real.log (Real.pi ^ 2 * ((t + 1 : ℕ) : ℝ) ^ 2 / (12 * 0.05))) + 0.2) * √1, fun t => ?_⟩
  unfold ucbImgpo
  simp only [Option.map_some, Option.some.injEq]
  rw [imgpoVarsigma_fin (by norm_num) (imgpo_arg (by norm_num) (by norm_num) (Nat.le_add_left 1 t)), XR.acqui_sqrt_fin (by norm_num)]
  rfl

end Limbo
