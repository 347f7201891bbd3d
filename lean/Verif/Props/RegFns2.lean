import Verif.Model.RegFns2
import Verif.Props.RegFns
import Verif.Props.Bench
import Mathlib.Analysis.Real.Pi.Bounds
import Mathlib.Analysis.SpecialFunctions.Trigonometric.Bounds

/-! # C120: the other functions of the regression benchmark -/

namespace Limbo.Reg

open Real

/-! ## Step -/

/-- **C120**: `Step` is 0 up to 0 and 1 after it, in the box of width 4 around its jump, and its only discontinuity is there: a function that is continuous
there is wrong by almost 1/2 at points as near to 0 as one likes. -/
theorem C120_step : (∀ a ≤ 0, step.f [a] = some 0) ∧ (∀ a > 0, step.f [a] = some 1) ∧
    (∀ a ≠ 0, ∃ δ > 0, ∀ b, |b - a| < δ → step.f [b] = step.f [a]) ∧
    ∀ g : ℝ → ℝ, ContinuousAt g 0 → ∀ ε > 0, ∀ δ > 0, ∃ a y, |a| < δ ∧ InBox step.bounds [a] ∧ step.f [a] = some y ∧ 1 / 2 - ε < |y - g a| := by
  have h0 : ∀ a ≤ 0, step.f [a] = some 0 := fun a ha => by simp only [step, ha, if_true]
  have h1 : ∀ a > 0, step.f [a] = some 1 := fun a ha => by simp only [step, not_le.2 ha, if_false]
  refine ⟨h0, h1, fun a ha => ⟨|a|, abs_pos.2 ha, fun b hb => ?_⟩, fun g hg ε hε δ hδ => ?_⟩
  · rw [abs_lt] at hb
    rcases lt_or_gt_of_ne ha with h | h
    · rw [abs_of_neg h] at hb
      rw [h0 a h.le, h0 b (by linarith)]
    · rw [abs_of_pos h] at hb
      rw [h1 a h, h1 b (by linarith)]
  · obtain ⟨η, hη, hc⟩ := Metric.continuousAt_iff.1 hg ε hε
    set m := min (min δ η) 2 / 2 with hm
    have hm0 : 0 < m := by positivity
    have m1 : m < δ := by have := min_le_left (min δ η) 2; have := min_le_left δ η; linarith
    have m2 : m < η := by have := min_le_left (min δ η) 2; have := min_le_right δ η; linarith
    have m3 : m ≤ 1 := by have := min_le_right (min δ η) 2; linarith
    have hb : ∀ a, |a| = m → |g a - g 0| < ε := fun a ha => by
      have := hc (x := a) (by rw [Real.dist_eq, sub_zero, ha]; exact m2)
      rwa [Real.dist_eq] at this
    have hbox : ∀ a, |a| = m → InBox step.bounds [a] := fun a ha => Or.inl ⟨_, rfl, fun b hb => by
      rw [List.mem_singleton.1 hb]
      have := abs_le.1 (ha.le.trans m3)
      simp only
      constructor <;> linarith⟩
    rcases le_total (g 0) (1 / 2) with h | h
    · have hm' : |m| = m := abs_of_pos hm0
      refine ⟨m, 1, by rw [hm']; exact m1, hbox m hm', h1 m hm0, ?_⟩
      have := abs_lt.1 (hb m hm')
      have := le_abs_self (1 - g m)
      linarith
    · have hm' : |-m| = m := by rw [abs_neg]; exact abs_of_pos hm0
      refine ⟨-m, 0, by rw [hm']; exact m1, hbox _ hm', h0 _ (by linarith), ?_⟩
      have := abs_lt.1 (hb _ hm')
      have := neg_abs_le (0 - g (-m))
      linarith

/-- a parabola is no good approximation -/
example : ∃ a y, |a| < (1 / 1000 : ℝ) ∧ InBox step.bounds [a] ∧ step.f [a] = some y ∧ 1 / 2 - (1 / 100 : ℝ) < |y - (a ^ 2 + 1 / 2)| :=
  C120_step.2.2.2 (fun a => a ^ 2 + 1 / 2) (by fun_prop) _ (by norm_num) _ (by norm_num)

/-! ## Gramacy and Lee -/

/-- **C120**: `GramacyLee` oscillates about `(a - 1)⁴`, which it meets exactly at the multiples of a tenth, with amplitude at most `1 / (2a)`;
in its box it is at least -1. -/
theorem C120_gramacy_lee (a : ℝ) (ha : 0 < a) : ∃ y, gramacyLee.f [a] = some y ∧ |y - (a - 1) ^ 4| ≤ 1 / (2 * a) ∧
    (y = (a - 1) ^ 4 ↔ ∃ k : ℤ, a = k / 10) ∧ (InBox gramacyLee.bounds [a] → -1 ≤ y) := by
  have h2 : (0 : ℝ) < 2 * a := by linarith
  refine ⟨sin (10 * π * a) / (2 * a) + (a - 1) ^ 4, by simp only [gramacyLee, ha.ne', if_false], ?_, ?_, ?_⟩
  · rw [add_sub_cancel_right, abs_div, abs_of_pos h2]
    exact div_le_div_of_nonneg_right (abs_sin_le_one _) h2.le
  · rw [add_eq_right, div_eq_zero_iff, or_iff_left h2.ne', sin_eq_zero_iff]
    refine exists_congr fun k => ?_
    rw [eq_div_iff (by norm_num : (10 : ℝ) ≠ 0)]
    constructor
    · intro h
      exact mul_right_cancel₀ pi_ne_zero (by linarith)
    · intro h
      rw [← h]; ring
  · rintro (⟨p, hp, h⟩ | ⟨h, -⟩)
    swap
    · exact absurd rfl h
    · obtain rfl : (0.5, 2.5) = p := by simpa [gramacyLee] using hp
      have h5 := (h a (by simp)).1
      have : -1 ≤ sin (10 * π * a) / (2 * a) := by
        rw [le_div_iff₀ h2]
        norm_num at h5
        linarith [neg_one_le_sin (10 * π * a)]
      have : 0 ≤ (a - 1) ^ 4 := by positivity
      linarith

/-- the largest zero of the sine below 1 -/
example : gramacyLee.f [9 / 10] = some ((9 / 10 - 1) ^ 4) := by
  obtain ⟨y, h, -, h2, -⟩ := C120_gramacy_lee (9 / 10) (by norm_num)
  rw [h, h2.2 ⟨9, by norm_num⟩]

/-! ## Schwefel -/

theorem cos_le_quartic {u : ℝ} (h : u ^ 2 ≤ 24) : cos u ≤ 1 - u ^ 2 / 2 + u ^ 4 / 24 := by
  wlog hu : 0 ≤ u
  · have := this (u := -u) (by rw [neg_sq]; exact h) (by linarith)
    rw [cos_neg, neg_sq, show (-u) ^ 4 = u ^ 4 by ring] at this
    exact this
  have h1 := sin_ge_sub_cube (x := u / 2) (by linarith)
  have h0 : 0 ≤ u / 2 - (u / 2) ^ 3 / 6 := by nlinarith
  have h2 : (u / 2 - (u / 2) ^ 3 / 6) ^ 2 ≤ sin (u / 2) ^ 2 := pow_le_pow_left₀ h0 h1 2
  have h3 : cos u = 1 - 2 * sin (u / 2) ^ 2 := by
    have := cos_sq_add_sin_sq (u / 2)
    have h4 := cos_two_mul (u / 2)
    rw [show 2 * (u / 2) = u by ring] at h4
    linarith
  rw [h3]
  have : 0 ≤ u ^ 6 := by positivity
  nlinarith

theorem cos_ge_double (u : ℝ) {r : ℝ} (hr : 0 ≤ r) (h : r ≤ cos (u / 2)) : 2 * r ^ 2 - 1 ≤ cos u := by
  have h4 := cos_two_mul (u / 2)
  rw [show 2 * (u / 2) = u by ring] at h4
  have := pow_le_pow_left₀ hr h 2
  linarith

theorem schwefel_poly {u : ℝ} (h1 : -1 ≤ u) (h2 : u ≤ 2) : (20.4203522484 + u) ^ 2 * (1 - u ^ 2 / 2 + u ^ 4 / 24) < 418.9829 := by
  have hq : 100 ≤ (3164694769639846209821672123906494873/15000000000000000000000000000000000) * u ^ 0 + (12819419877504479644256674063/750000000000000000000000000) * u ^ 1 + (-860325316817593360047/50000000000000000000) * u ^ 2 + (-51293807371/30000000000) * u ^ 3 + (-1/24) * u ^ 4 := by
    nlinarith [mul_nonneg (sub_nonneg.2 h1) (sub_nonneg.2 h2), mul_nonneg (mul_nonneg (sub_nonneg.2 h1) (sub_nonneg.2 h2)) (sub_nonneg.2 h1), mul_nonneg (mul_nonneg (sub_nonneg.2 h1) (sub_nonneg.2 h2)) (sq_nonneg u), sq_nonneg u]
  have he : 418.9829 - (20.4203522484 + u) ^ 2 * (1 - u ^ 2 / 2 + u ^ 4 / 24) = (18349130847213195576627169526664398234161559/1500000000000000000000000000000000000000000000000) + (-88232387471735112032047952274815023/6250000000000000000000000000000000000000) * (u - (971707/10000000)) + (u - (971707/10000000)) ^ 2 * ((3164694769639846209821672123906494873/15000000000000000000000000000000000) * u ^ 0 + (12819419877504479644256674063/750000000000000000000000000) * u ^ 1 + (-860325316817593360047/50000000000000000000) * u ^ 2 + (-51293807371/30000000000) * u ^ 3 + (-1/24) * u ^ 4) := by
    ring
  have hs := mul_le_mul_of_nonneg_left hq (sq_nonneg (u - (971707/10000000)))
  have : 0 < (18349130847213195576627169526664398234161559/1500000000000000000000000000000000000000000000000) + (-88232387471735112032047952274815023/6250000000000000000000000000000000000000) * (u - (971707/10000000)) + (u - (971707/10000000)) ^ 2 * 100 := by nlinarith [sq_nonneg (u - (971707/10000000) - 1 / 1000000)]
  linarith

theorem thirteen_pi : (20.4203522483 : ℝ) < 13 * π / 2 ∧ 13 * π / 2 < 20.4203522484 := by
  have h1 := pi_gt_d20
  have h2 := pi_lt_d20
  constructor <;> norm_num at h1 h2 ⊢ <;> linarith

theorem sin_thirteen (s : ℝ) : sin s = cos (s - 13 * π / 2) := by
  rw [show s - 13 * π / 2 = (s - π / 2) - (3 : ℕ) * (2 * π) by push_cast; ring, cos_sub_nat_mul_two_pi, cos_sub_pi_div_two]

theorem schwefel_term {a : ℝ} (ha : |a| ≤ 500) : a * sin (sqrt |a|) < 418.9829 := by
  have hsq := sq_sqrt (abs_nonneg a)
  have hs0 := sqrt_nonneg |a|
  have habs : |a| = sqrt |a| ^ 2 := hsq.symm
  generalize sqrt |a| = s at *
  obtain ⟨c1, c2⟩ := thirteen_pi
  have hs : s ≤ 22.37 := by nlinarith
  rcases le_or_gt s 20 with h | h
  · have h1 : a * sin s ≤ |a| * 1 := by
      refine (le_abs_self _).trans ?_
      rw [abs_mul]
      exact mul_le_mul_of_nonneg_left (abs_sin_le_one _) (abs_nonneg _)
    nlinarith
  · rw [sin_thirteen]
    set u := s - 13 * π / 2 with hu
    have u1 : -1 ≤ u := by norm_num at c1 c2; linarith
    have u2 : u ≤ 1.95 := by norm_num at c1 c2 hs ⊢; linarith
    rcases le_total 0 a with h0 | h0
    · rw [abs_of_nonneg h0] at habs
      rw [habs]
      have hc := cos_le_quartic (u := u) (by nlinarith)
      have hp := schwefel_poly u1 (by norm_num at u2 ⊢; linarith)
      have hsu : s ^ 2 ≤ (20.4203522484 + u) ^ 2 := pow_le_pow_left₀ hs0 (by linarith) 2
      rcases le_total 0 (cos u) with hcu | hcu
      · calc s ^ 2 * cos u ≤ (20.4203522484 + u) ^ 2 * cos u := mul_le_mul_of_nonneg_right hsu hcu
          _ ≤ _ := mul_le_mul_of_nonneg_left hc (sq_nonneg _)
          _ < _ := hp
      · have : s ^ 2 * cos u ≤ 0 := mul_nonpos_of_nonneg_of_nonpos (sq_nonneg _) hcu
        linarith
    · rw [abs_of_nonpos h0] at habs ha
      have hq := one_sub_sq_div_two_le_cos (x := u / 2)
      have hu2 : u ^ 2 ≤ 3.81 := by norm_num at u2 ⊢; nlinarith
      have := cos_ge_double u (r := 0.5) (by norm_num) (by norm_num at hu2 ⊢; nlinarith)
      have : (-a) * (-cos u) ≤ (-a) * 0.5 := mul_le_mul_of_nonneg_left (by norm_num at this ⊢; linarith) (by linarith)
      linarith

theorem schwefel_f (x : List ℝ) : schwefel.f x = some (x.map fun a => 418.9829 - a * sin (sqrt |a|)).sum := by
  have : ∀ (x : List ℝ) (b : ℝ), x.foldl (fun B a => B + a * sin (sqrt |a|)) b = b + (x.map fun a => a * sin (sqrt |a|)).sum := by
    intro x
    induction x with
    | nil => intro b; simp
    | cons a l ih => intro b; rw [List.foldl_cons, ih, List.map_cons, List.sum_cons]; ring
  simp only [schwefel, this, zero_add, Option.some.injEq]
  induction x with
  | nil => simp
  | cons a l ih => rw [List.map_cons, List.sum_cons, List.map_cons, List.sum_cons, ← ih, List.length_cons]; push_cast; ring

/-- the documented minimizer -/
theorem schwefel_min_term : (418.9829 : ℝ) - 420.9687 * sin (sqrt |420.9687|) ≤ 4e-5 := by
  rw [abs_of_pos (by norm_num), sin_thirteen]
  obtain ⟨c1, c2⟩ := thirteen_pi
  have t1 : (20.5175217 : ℝ) ≤ sqrt 420.9687 := le_sqrt_of_sq_le (by norm_num)
  have t2 : sqrt 420.9687 ≤ (20.5175218 : ℝ) := sqrt_le_iff.2 ⟨by norm_num, by norm_num⟩
  set u := sqrt 420.9687 - 13 * π / 2 with hu
  have u1 : 0 ≤ u := by norm_num at *; linarith
  have u2 : u ≤ 0.09716955171 := by norm_num at *; linarith
  have h0 : cos 0.09716955171 ≤ cos u := cos_le_cos_of_nonneg_of_le_pi u1 (by linarith [pi_gt_three]) u2
  have h1 := one_sub_sq_div_two_le_cos (x := 0.09716955171 / 2 / 2 / 2)
  have h2 := cos_ge_double (0.09716955171 / 2 / 2) (by norm_num) h1
  have h3 := cos_ge_double (0.09716955171 / 2) (by norm_num) h2
  have h4 := cos_ge_double 0.09716955171 (by norm_num) h3
  have h5 : (0.99528269 : ℝ) ≤ cos u := le_trans (le_trans (by norm_num) h4) h0
  norm_num at h5 ⊢
  linarith

/-- **C120**: `Schwefel`, in every dimension, is never negative in its box, and zero only for the empty vector; the documented minimizer, with 420.9687 in every
coordinate, lies in the box and has a value of at most `4e-5` per coordinate.  Mirrored points have values with the mean `418.9829 d`. -/
theorem C120_schwefel (x : List ℝ) (hx : InBox schwefel.bounds x) : (∃ y, schwefel.f x = some y ∧ 0 ≤ y ∧ (x ≠ [] → 0 < y) ∧
      schwefel.f (x.map Neg.neg) = some (2 * (418.9829 * x.length) - y)) ∧
    ∀ d : ℕ, InBox schwefel.bounds (List.replicate d 420.9687) ∧ ∃ y, schwefel.f (List.replicate d 420.9687) = some y ∧ y ≤ d * 4e-5 := by
  have hb : ∀ a ∈ x, |a| ≤ 500 := by
    rcases hx with ⟨p, hp, h⟩ | ⟨h, -⟩
    · obtain rfl : (-500, 500) = p := by simpa [schwefel] using hp
      exact fun a ha => abs_le.2 (h a ha)
    · exact absurd rfl h
  refine ⟨⟨_, schwefel_f x, List.sum_nonneg ?_, fun hne => List.sum_pos _ ?_ (by simpa using hne), ?_⟩, fun d => ⟨Or.inl ⟨_, rfl, ?_⟩, _, schwefel_f _, ?_⟩⟩
  · intro y hy
    obtain ⟨a, ha, rfl⟩ := List.mem_map.1 hy
    linarith [schwefel_term (hb a ha)]
  · intro y hy
    obtain ⟨a, ha, rfl⟩ := List.mem_map.1 hy
    linarith [schwefel_term (hb a ha)]
  · rw [schwefel_f, Option.some.injEq]
    clear hx hb
    induction x with
    | nil => simp
    | cons a l ih =>
      simp only [List.map_cons, List.sum_cons, List.length_cons, abs_neg] at ih ⊢
      rw [ih]; push_cast; ring
  · intro a ha
    rw [List.eq_of_mem_replicate ha]
    norm_num
  · rw [List.map_replicate, List.sum_replicate, nsmul_eq_mul]
    exact mul_le_mul_of_nonneg_left schwefel_min_term (Nat.cast_nonneg _)

example : ∃ y, schwefel.f [420, -300, 12] = some y ∧ 0 < y := by
  obtain ⟨⟨y, h1, -, h2, -⟩, -⟩ := C120_schwefel [420, -300, 12] (Or.inl ⟨_, rfl, by norm_num⟩)
  exact ⟨y, h1, h2 (by simp)⟩

/-! ## Six-hump camel -/

/-- **C120**: `SixHumpCamel` is at least -1.0317 everywhere, within `1e-4` of that at the two documented minimizers (in its box), and symmetric about the origin. -/
theorem C120_six_hump_camel (a b : ℝ) : (∃ y, sixHumpCamel.f [a, b] = some y ∧ -1.0317 ≤ y ∧ sixHumpCamel.f [-a, -b] = some y) ∧
    ∀ s ∈ [[0.0898, -0.7126], [-0.0898, 0.7126]], InBox sixHumpCamel.bounds s ∧ ∃ y, sixHumpCamel.f s = some y ∧ y ≤ -1.0316 := by
  refine ⟨⟨_, rfl, ?_, ?_⟩, ?_⟩
  · refine (Bench.six_hump_bound a b).trans (le_of_eq ?_)
    ring
  · simp only [sixHumpCamel, neg_mul_neg]
  · intro s hs
    simp only [List.mem_cons, List.not_mem_nil, or_false] at hs
    rcases hs with rfl | rfl <;>
      refine ⟨Or.inr ⟨by simp [sixHumpCamel], ?_⟩, _, rfl, by norm_num⟩ <;>
      simp only [sixHumpCamel, List.forall₂_cons, List.Forall₂.nil, and_true] <;> norm_num

/-! ## The push-pull circuit -/

/-- **C120**: `OTLCircuit` is the voltage of a node of a circuit: with positive resistances and gain there is exactly one pair of voltages, at the base `Vb` and at
the node, for which the base is the output of the divider `Rb1`, `Rb2` at 12 volts and the currents at the node through the feedback resistor, through the load and
through `Rc1` balance; `OTLCircuit` returns the second.  In particular it is defined in the whole box. -/
theorem C120_otl_circuit (Rb1 Rb2 Rf Rc1 Rc2 beta : ℝ) (h1 : 0 < Rb1) (h2 : 0 < Rb2) (h3 : 0 < Rf) (h4 : 0 < Rc1) (h5 : 0 < Rc2) (h6 : 0 < beta) :
    ∃ y, otlCircuit.f [Rb1, Rb2, Rf, Rc1, Rc2, beta] = some y ∧ ∀ Vb V : ℝ,
      ((12 - Vb) / Rb1 = Vb / Rb2 ∧ (V - (Vb + 0.74)) / Rf + (V - 11.35) / (beta * (Rc2 + 9)) = 0.74 / Rc1) ↔
        (Vb = 12 * Rb2 / (Rb1 + Rb2) ∧ V = y) := by
  have hR : 0 < beta * (Rc2 + 9) := by positivity
  have hb : 0 < Rb1 + Rb2 := by positivity
  have hD : 0 < beta * (Rc2 + 9) + Rf := by positivity
  refine ⟨_, by simp only [otlCircuit, hb.ne', hD.ne', h4.ne', or_self, if_false]; rfl, fun Vb V => ?_⟩
  have e1 : (12 - Vb) / Rb1 = Vb / Rb2 ↔ Vb = 12 * Rb2 / (Rb1 + Rb2) := by
    rw [div_eq_div_iff h1.ne' h2.ne', eq_div_iff hb.ne']
    constructor <;> intro h <;> linarith
  rw [e1]
  refine and_congr_right fun hV => ?_
  rw [← hV]
  have hr : (Vb + 0.74) * beta * (Rc2 + 9) = (Vb + 0.74) * (beta * (Rc2 + 9)) := by ring
  have hr2 : 0.74 * Rf * beta * (Rc2 + 9) = 0.74 * Rf * (beta * (Rc2 + 9)) := by ring
  rw [hr, hr2]
  generalize beta * (Rc2 + 9) = R at hR hD ⊢
  have e2 : (Vb + 0.74) * R / (R + Rf) + 11.35 * Rf / (R + Rf) + 0.74 * Rf * R / ((R + Rf) * Rc1) =
      ((Vb + 0.74) * R * Rc1 + 11.35 * Rf * Rc1 + 0.74 * Rf * R) / ((R + Rf) * Rc1) := by
    field_simp
  have e3 : (V - (Vb + 0.74)) / Rf + (V - 11.35) / R = ((V - (Vb + 0.74)) * R + (V - 11.35) * Rf) / (Rf * R) := by
    field_simp
  rw [e2, e3, div_eq_div_iff (by positivity) h4.ne', eq_div_iff (by positivity)]
  constructor <;> intro h <;> linarith

/-- the middle of the box -/
example : ∃ y, otlCircuit.f [100, 47.5, 1.75, 1.85, 0.725, 175] = some y := by
  obtain ⟨y, h, -⟩ := C120_otl_circuit 100 47.5 1.75 1.85 0.725 175 (by norm_num) (by norm_num) (by norm_num) (by norm_num) (by norm_num) (by norm_num)
  exact ⟨y, h⟩

/-! ## The draws -/

/-- **C120**: as `C120_draws`, for these five functions. -/
theorem C120_draws_more (F : RegFn) (hF : F ∈ [gramacyLee, step, schwefel, sixHumpCamel, otlCircuit])
    (u : List ℝ) (hu : ∀ a ∈ u, 0 ≤ a ∧ a ≤ 1) (hd : 0 < F.dims → (u.length : Int) = F.dims) :
    ∃ x y, scale F.bounds u = some x ∧ InBox F.bounds x ∧ x.length = u.length ∧ F.f x = some y := by
  have one : ∀ p : ℝ × ℝ, p.1 ≤ p.2 → ∃ x, scale [p] u = some x ∧ InBox [p] x ∧ x.length = u.length := by
    intro p hp
    refine ⟨_, rfl, Or.inl ⟨p, rfl, fun a ha => ?_⟩, by simp⟩
    obtain ⟨b, hb, rfl⟩ := List.mem_map.1 ha
    have := hu b hb
    constructor <;> nlinarith
  have many : ∀ b : List (ℝ × ℝ), 2 ≤ b.length → b.length = u.length → (∀ p ∈ b, p.1 ≤ p.2) →
      ∃ x, scale b u = some x ∧ InBox b x ∧ x.length = u.length ∧ List.Forall₂ (fun p a => p.1 ≤ a ∧ a ≤ p.2) b x := by
    intro b hb hl hp
    refine ⟨List.zipWith (fun a p => a * (p.2 - p.1) + p.1) u b, ?_, Or.inr ⟨by omega, forall₂_scale hl hp hu⟩, by simp [hl], forall₂_scale hl hp hu⟩
    unfold scale
    split
    · simp at hb
    · rw [if_pos hl.ge]
  simp only [List.mem_cons, List.not_mem_nil, or_false] at hF
  rcases hF with rfl | rfl | rfl | rfl | rfl
  · have hl : u.length = 1 := by have : (u.length : Int) = 1 := hd (show (0:Int) < 1 by norm_num); omega
    obtain ⟨x, h1, h2, h3⟩ := one (0.5, 2.5) (by norm_num)
    obtain ⟨a, rfl⟩ := List.length_eq_one_iff.1 (h3.trans hl)
    have ha : 0 < a := by
      rcases h2 with ⟨p, hp, h⟩ | ⟨h, -⟩
      · obtain rfl : (0.5, 2.5) = p := by simpa using hp
        have := (h a (by simp)).1
        norm_num at this
        linarith
      · exact absurd rfl h
    obtain ⟨y, hy, -⟩ := C120_gramacy_lee a ha
    exact ⟨_, y, h1, h2, h3, hy⟩
  · have hl : u.length = 1 := by have : (u.length : Int) = 1 := hd (show (0:Int) < 1 by norm_num); omega
    obtain ⟨x, h1, h2, h3⟩ := one (-2, 2) (by norm_num)
    obtain ⟨a, rfl⟩ := List.length_eq_one_iff.1 (h3.trans hl)
    exact ⟨_, _, h1, h2, h3, rfl⟩
  · obtain ⟨x, h1, h2, h3⟩ := one (-500, 500) (by norm_num)
    exact ⟨x, _, h1, h2, h3, rfl⟩
  · have hl : u.length = 2 := by have : (u.length : Int) = 2 := hd (show (0:Int) < 2 by norm_num); omega
    obtain ⟨x, h1, h2, h3, -⟩ := many [(-3, 3), (-2, 2)] (by simp) (by simp [hl]) (by norm_num)
    obtain ⟨a, b, rfl⟩ := List.length_eq_two.1 (h3.trans hl)
    exact ⟨_, _, h1, h2, h3, rfl⟩
  · have hl : u.length = 6 := by have : (u.length : Int) = 6 := hd (show (0:Int) < 6 by norm_num); omega
    obtain ⟨x, h1, h2, h3, h4⟩ := many [(50, 150), (25, 70), (0.5, 3), (1.2, 2.5), (0.25, 1.2), (50, 300)] (by simp) (by simp [hl]) (by norm_num)
    have h6 := h3.trans hl
    match x, h6 with
    | [a, b, c, d, e, f], _ =>
      simp only [List.forall₂_cons] at h4
      obtain ⟨k1, k2, k3, k4, k5, k6, -⟩ := h4
      norm_num at k1 k2 k3 k4 k5 k6
      obtain ⟨y, hy, -⟩ := C120_otl_circuit a b c d e f (by linarith) (by linarith) (by linarith) (by linarith) (by linarith) (by linarith)
      exact ⟨_, y, h1, h2, h3, hy⟩

/-- a draw in three dimensions -/
example : ∃ x y, scale schwefel.bounds [0, 1/2, 1] = some x ∧ InBox schwefel.bounds x ∧ x.length = 3 ∧ schwefel.f x = some y :=
  C120_draws_more schwefel (by simp) [0, 1/2, 1] (by norm_num) (by simp [schwefel])

end Limbo.Reg
