import Mathlib.Analysis.SpecialFunctions.Trigonometric.Bounds
import Mathlib.Analysis.Real.Pi.Bounds
import Mathlib.Tactic.IntervalCases
import Verif.Spec.Bench

/-!
C94: the solutions listed by the benchmark functions are their global optima, and the reported accuracy is the regret; where this is not
exactly so (`BraninNormalized`, `SixHumpCamel`) the error is bounded, and shown to be real.
-/

namespace Limbo.Bench

open Real

/-! ### Sphere -/

/-- **C94** (Sphere): the listed solution is the only global optimum. -/
theorem C94_sphere_solution (x : Fin 2 → ℝ) : sphere.Minimal x ↔ x = sphere.sol := by
  have h0 : sphere.f sphere.sol = 0 := by simp [sphere, sqr]
  constructor
  · intro h
    have := h sphere.sol
    rw [h0] at this
    simp only [sphere, sqr] at this
    have a : x 0 = 0.5 := by nlinarith [sq_nonneg (x 0 - 0.5), sq_nonneg (x 1 - 0.5)]
    have b : x 1 = 0.5 := by nlinarith [sq_nonneg (x 0 - 0.5), sq_nonneg (x 1 - 0.5)]
    funext i; fin_cases i
    · simpa [sphere] using a
    · simpa [sphere] using b
  · rintro rfl y
    rw [h0]
    simp only [sphere, sqr]
    nlinarith [sq_nonneg (y 0 - 0.5), sq_nonneg (y 1 - 0.5)]

/-! ### Ellipsoid -/

theorem tOsz_zero : tOsz 0 = 0 := by simp [tOsz, sign]

theorem tOsz_ne_zero {x : ℝ} (h : x ≠ 0) : tOsz x ≠ 0 := by
  unfold tOsz sign
  refine mul_ne_zero ?_ (exp_ne_zero _)
  rcases lt_trichotomy x 0 with hx | hx | hx
  · simp [hx]
  · exact absurd hx h
  · simp [hx, not_lt.2 hx.le]

theorem ellipsoid_f (x : Fin 2 → ℝ) :
    ellipsoid.f x = tOsz (x 0 - 0.5) * tOsz (x 0 - 0.5) + 10 * (tOsz (x 1 - 0.5) * tOsz (x 1 - 0.5)) + 2 := by
  simp only [ellipsoid, Fin.sum_univ_two, Fin.val_zero, Fin.val_one, Nat.cast_zero, Nat.cast_one]
  norm_num
  ring

/-- **C94** (Ellipsoid): the listed solution is the only global optimum. -/
theorem C94_ellipsoid_solution (x : Fin 2 → ℝ) : ellipsoid.Minimal x ↔ x = ellipsoid.sol := by
  have h0 : ellipsoid.f ellipsoid.sol = 2 := by
    rw [ellipsoid_f]
    simp [ellipsoid, tOsz_zero]
  constructor
  · intro h
    have := h ellipsoid.sol
    rw [h0, ellipsoid_f] at this
    have p := mul_self_nonneg (tOsz (x 0 - 0.5))
    have q := mul_self_nonneg (tOsz (x 1 - 0.5))
    have a : x 0 = 0.5 := by
      by_contra hne
      exact tOsz_ne_zero (sub_ne_zero.2 hne) (mul_self_eq_zero.1 (by linarith))
    have b : x 1 = 0.5 := by
      by_contra hne
      exact tOsz_ne_zero (sub_ne_zero.2 hne) (mul_self_eq_zero.1 (by linarith))
    funext i; fin_cases i
    · simpa [ellipsoid] using a
    · simpa [ellipsoid] using b
  · rintro rfl y
    rw [h0, ellipsoid_f]
    have p := mul_self_nonneg (tOsz (y 0 - 0.5))
    have q := mul_self_nonneg (tOsz (y 1 - 0.5))
    linarith

/-! ### Rastrigin -/

/-- **C94** (Rastrigin): the listed solution is the only global optimum. -/
theorem C94_rastrigin_solution (x : Fin 4 → ℝ) : rastrigin.Minimal x ↔ x = rastrigin.sol := by
  have hf : ∀ x : Fin 4 → ℝ, rastrigin.f x =
      ∑ i : Fin 4, ((2 * x i - 1) * (2 * x i - 1) + 10 * (1 - cos (2 * π * (2 * x i - 1)))) := by
    intro x
    simp only [rastrigin, Fin.sum_univ_four]
    ring
  have hpos : ∀ (x : Fin 4 → ℝ) i, (2 * x i - 1) * (2 * x i - 1) ≤
      (2 * x i - 1) * (2 * x i - 1) + 10 * (1 - cos (2 * π * (2 * x i - 1))) := by
    intro x i
    have := cos_le_one (2 * π * (2 * x i - 1))
    linarith
  have hnn : ∀ (x : Fin 4 → ℝ) i, 0 ≤
      (2 * x i - 1) * (2 * x i - 1) + 10 * (1 - cos (2 * π * (2 * x i - 1))) :=
    fun x i => (mul_self_nonneg _).trans (hpos x i)
  have h0 : rastrigin.f rastrigin.sol = 0 := by
    rw [hf]
    simp [rastrigin]
  constructor
  · intro h
    have h1 := h rastrigin.sol
    rw [h0, hf] at h1
    have h2 := (Finset.sum_eq_zero_iff_of_nonneg fun i _ => hnn x i).1 (le_antisymm h1 (Finset.sum_nonneg fun i _ => hnn x i))
    funext i
    have h3 := hpos x i
    rw [h2 i (Finset.mem_univ i)] at h3
    have h4 := mul_self_eq_zero.1 (le_antisymm h3 (mul_self_nonneg _))
    show x i = (0 + 1) / 2
    linarith
  · rintro rfl y
    rw [h0, hf]
    exact Finset.sum_nonneg fun i _ => hnn y i

/-! ### Goldstein–Price -/

/-- The two factors, in the sum `s` and the difference `t` of the coordinates. -/
theorem goldstein_f (x : Fin 2 → ℝ) : goldsteinPrice.f x =
    (log ((1 + ((4 * x 0 - 2) + (4 * x 1 - 2) + 1) ^ 2 *
        (3 * ((4 * x 0 - 2) + (4 * x 1 - 2)) ^ 2 - 14 * ((4 * x 0 - 2) + (4 * x 1 - 2)) + 19)) *
      (3 + (2 * (4 * x 0 - 2) - 3 * (4 * x 1 - 2) - 3) ^ 2 *
        (3 * (2 * (4 * x 0 - 2) - 3 * (4 * x 1 - 2)) ^ 2 + 2 * (2 * (4 * x 0 - 2) - 3 * (4 * x 1 - 2)) + 3)) ) - 8.693) / 2.427 := by
  simp only [goldsteinPrice, sqr]
  congr 3
  ring

theorem goldstein_factors (s t : ℝ) :
    0 < 3 * s ^ 2 - 14 * s + 19 ∧ 0 < 3 * t ^ 2 + 2 * t + 3 := by
  constructor
  · nlinarith [sq_nonneg (3 * s - 7)]
  · nlinarith [sq_nonneg (3 * t + 1)]

/-- **C94** (GoldsteinPrice): the listed solution is the only global optimum. -/
theorem C94_goldstein_price_solution (x : Fin 2 → ℝ) : goldsteinPrice.Minimal x ↔ x = goldsteinPrice.sol := by
  have h0 : goldsteinPrice.f goldsteinPrice.sol = (log 3 - 8.693) / 2.427 := by
    rw [goldstein_f]
    simp [goldsteinPrice]
    norm_num
  constructor
  · intro h
    have h1 := h goldsteinPrice.sol
    rw [h0, goldstein_f] at h1
    generalize hs : (4 * x 0 - 2) + (4 * x 1 - 2) = s at h1
    generalize ht : 2 * (4 * x 0 - 2) - 3 * (4 * x 1 - 2) = t at h1
    obtain ⟨ps, pt⟩ := goldstein_factors s t
    have qs : 0 ≤ (s + 1) ^ 2 * (3 * s ^ 2 - 14 * s + 19) := mul_nonneg (sq_nonneg _) ps.le
    have qt : 0 ≤ (t - 3) ^ 2 * (3 * t ^ 2 + 2 * t + 3) := mul_nonneg (sq_nonneg _) pt.le
    set A := (s + 1) ^ 2 * (3 * s ^ 2 - 14 * s + 19) with hA
    set B := (t - 3) ^ 2 * (3 * t ^ 2 + 2 * t + 3) with hB
    have h2 : log ((1 + A) * (3 + B)) ≤ log 3 := by
      rw [div_le_div_iff_of_pos_right (by norm_num)] at h1
      linarith
    have h3 : (1 + A) * (3 + B) ≤ 3 := (log_le_log_iff (by positivity) (by norm_num)).1 h2
    have hA0 : A = 0 := by nlinarith
    have hB0 : B = 0 := by nlinarith
    have es : s + 1 = 0 := by
      rcases mul_eq_zero.1 (hA ▸ hA0) with h | h
      · exact pow_eq_zero_iff (two_ne_zero) |>.1 h
      · exact absurd h ps.ne'
    have et : t - 3 = 0 := by
      rcases mul_eq_zero.1 (hB ▸ hB0) with h | h
      · exact pow_eq_zero_iff (two_ne_zero) |>.1 h
      · exact absurd h pt.ne'
    have a : x 0 = 0.5 := by norm_num; linarith
    have b : x 1 = 0.25 := by norm_num; linarith
    funext i; fin_cases i
    · simpa [goldsteinPrice] using a
    · simpa [goldsteinPrice] using b
  · rintro rfl y
    rw [h0, goldstein_f]
    generalize (4 * y 0 - 2) + (4 * y 1 - 2) = s
    generalize 2 * (4 * y 0 - 2) - 3 * (4 * y 1 - 2) = t
    obtain ⟨ps, pt⟩ := goldstein_factors s t
    have qs : 0 ≤ (s + 1) ^ 2 * (3 * s ^ 2 - 14 * s + 19) := mul_nonneg (sq_nonneg _) ps.le
    have qt : 0 ≤ (t - 3) ^ 2 * (3 * t ^ 2 + 2 * t + 3) := mul_nonneg (sq_nonneg _) pt.le
    have : log 3 ≤ log ((1 + (s + 1) ^ 2 * (3 * s ^ 2 - 14 * s + 19)) * (3 + (t - 3) ^ 2 * (3 * t ^ 2 + 2 * t + 3))) :=
      log_le_log (by norm_num) (by nlinarith [mul_nonneg qs qt])
    rw [div_le_div_iff_of_pos_right (by norm_num)]
    linarith

/-! ### Accuracy -/

theorem accuracy_near {n : ℕ} (F : TestFn n) (m ε : ℝ) (hm : ∀ y, m ≤ F.f y) (h0 : F.f F.sol ≤ m + ε)
    (hs : ∀ s ∈ F.sols, F.f s ≤ m + ε) (x : Fin n → ℝ) :
    F.f x - m - ε ≤ F.accuracy (F.eval x) ∧ F.accuracy (F.eval x) ≤ F.f x - m + ε := by
  have key : ∀ l : List (Fin n → ℝ), (∀ s ∈ l, F.f s ≤ m + ε) → ∀ d, F.f x - m - ε ≤ d → d ≤ F.f x - m + ε →
      F.f x - m - ε ≤ l.foldl (fun minDiff s => let diff := |F.eval x + F.f s|; if diff < minDiff then diff else minDiff) d ∧
      l.foldl (fun minDiff s => let diff := |F.eval x + F.f s|; if diff < minDiff then diff else minDiff) d ≤ F.f x - m + ε := by
    intro l
    induction l with
    | nil => intro _ d h1 h2; exact ⟨h1, h2⟩
    | cons s l ih =>
      intro hl d h1 h2
      rw [List.foldl_cons]
      apply ih (fun s hs => hl s (List.mem_cons_of_mem _ hs))
      · show _ ≤ if _ then _ else _
        split
        · have := hl s List.mem_cons_self
          have := neg_le_abs (F.eval x + F.f s)
          simp only [TestFn.eval] at this ⊢
          linarith
        · exact h1
      · show (if _ then _ else _) ≤ _
        split
        · next h => exact h.le.trans h2
        · exact h2
  apply key _ hs
  · have := neg_le_abs (F.eval x + F.f F.sol)
    simp only [TestFn.eval] at this ⊢
    linarith
  · have h1 := hm x
    have h2 := hm F.sol
    simp only [TestFn.eval]
    exact abs_le.2 ⟨by linarith, by linarith⟩

theorem accuracy_exact {n : ℕ} (F : TestFn n) (h : F.Minimal F.sol) (hs : F.sols = []) : F.AccuracyIsRegret := by
  intro x best hb
  have e : F.f best = F.f F.sol := le_antisymm (hb _) (h _)
  obtain ⟨a, b⟩ := accuracy_near F (F.f F.sol) 0 h (by simp) (by simp [hs]) x
  rw [e]
  linarith

/-- **C94**: for these functions the reported accuracy is the regret of the best point. -/
theorem C94_accuracy_is_regret : sphere.AccuracyIsRegret ∧ ellipsoid.AccuracyIsRegret ∧ rastrigin.AccuracyIsRegret ∧
    goldsteinPrice.AccuracyIsRegret :=
  ⟨accuracy_exact _ ((C94_sphere_solution _).2 rfl) rfl, accuracy_exact _ ((C94_ellipsoid_solution _).2 rfl) rfl,
    accuracy_exact _ ((C94_rastrigin_solution _).2 rfl) rfl, accuracy_exact _ ((C94_goldstein_price_solution _).2 rfl) rfl⟩

example : sphere.accuracy (sphere.eval ![0.5, 1]) = 0.25 := by
  rw [C94_accuracy_is_regret.1 ![0.5, 1] sphere.sol ((C94_sphere_solution _).2 rfl)]
  simp [sphere, sqr]
  norm_num

/-! ### Branin -/

/-- The smallest value. -/
noncomputable def braninMin : ℝ := (-(10 - 10 / (8 * π)) - 44.81) / 51.95

theorem branin_coeff : 0 < 10 - 10 / (8 * π) := by
  have : 10 / (8 * π) < 10 := by
    rw [div_lt_iff₀ (by positivity)]
    linarith [pi_gt_three]
  linarith

theorem branin_min (x : Fin 2 → ℝ) : braninMin ≤ branin.f x := by
  simp only [branin, braninMin]
  rw [div_le_div_iff_of_pos_right (by norm_num)]
  have := neg_one_le_cos (x 0 * 15 - 5)
  have c := branin_coeff
  have s : 0 ≤ sqr (x 1 * 15 - (5.1 * sqr (x 0 * 15 - 5) / (4 * sqr π)) + 5 * (x 0 * 15 - 5) / π - 6) := mul_self_nonneg _
  nlinarith

theorem branin_eq_min {x : Fin 2 → ℝ} : branin.f x = braninMin ↔
    cos (x 0 * 15 - 5) = -1 ∧ x 1 * 15 - (5.1 * sqr (x 0 * 15 - 5) / (4 * sqr π)) + 5 * (x 0 * 15 - 5) / π - 6 = 0 := by
  simp only [branin, braninMin]
  rw [div_left_inj' (by norm_num)]
  have := neg_one_le_cos (x 0 * 15 - 5)
  have c := branin_coeff
  set q := x 1 * 15 - (5.1 * sqr (x 0 * 15 - 5) / (4 * sqr π)) + 5 * (x 0 * 15 - 5) / π - 6
  have s : 0 ≤ sqr q := mul_self_nonneg _
  constructor
  · intro h
    have h1 : cos (x 0 * 15 - 5) = -1 := by
      have : (10 - 10 / (8 * π)) * (cos (x 0 * 15 - 5) + 1) ≤ 0 := by nlinarith
      nlinarith
    refine ⟨h1, ?_⟩
    rw [h1] at h
    exact mul_self_eq_zero.1 (show sqr q = 0 by linarith)
  · rintro ⟨h1, h2⟩
    rw [h1, h2]
    simp [sqr]

/-- The second coordinate that goes with an odd multiple of `π`. -/
theorem branin_second (k : ℝ) (y : ℝ) :
    y * 15 - (5.1 * sqr (k * π) / (4 * sqr π)) + 5 * (k * π) / π - 6 = 0 ↔ y = (5.1 * k ^ 2 / 4 - 5 * k + 6) / 15 := by
  have hp := pi_ne_zero
  have e : 5.1 * sqr (k * π) / (4 * sqr π) = 5.1 * k ^ 2 / 4 := by
    simp only [sqr]
    field_simp
  have e' : 5 * (k * π) / π = 5 * k := by field_simp
  rw [e, e']
  constructor
  · intro h
    field_simp
    linarith
  · rintro rfl
    field_simp
    ring

theorem branin_minimal_iff (x : Fin 2 → ℝ) : branin.Minimal x ↔ branin.f x = braninMin := by
  have h0 : branin.f branin.sol = braninMin := by
    rw [branin_eq_min]
    have e : (branin.sol 0) * 15 - 5 = -1 * π := by
      show (-π + 5) / 15 * 15 - 5 = _
      ring
    rw [e]
    refine ⟨by simp, (branin_second (-1) _).2 ?_⟩
    show (12.275 : ℝ) / 15 = _
    norm_num
  constructor
  · intro h
    exact le_antisymm (h0 ▸ h branin.sol) (branin_min x)
  · intro h y
    rw [h]
    exact branin_min y

/-- **C94** (BraninNormalized): in the search box there are exactly three optima; the first two listed solutions are two of them, the third
one has first coordinate `(3π + 5)/15`. -/
theorem C94_branin_solutions (x : Fin 2 → ℝ) (hx : branin.InBox x) :
    branin.Minimal x ↔ x = branin.sol ∨ x = ![(π + 5) / 15, 2.275 / 15] ∨ x = ![(3 * π + 5) / 15, 2.475 / 15] := by
  rw [branin_minimal_iff, branin_eq_min]
  have hp := pi_gt_three
  have hp2 := pi_lt_d2
  have ext : ∀ a b : ℝ, x = ![a, b] ↔ x 0 = a ∧ x 1 = b := by
    intro a b
    constructor
    · rintro rfl; simp
    · rintro ⟨h1, h2⟩
      funext i; fin_cases i
      · simpa using h1
      · simpa using h2
  have hb : branin.sol = ![(-π + 5) / 15, 12.275 / 15] := rfl
  rw [hb, ext, ext, ext]
  constructor
  · rintro ⟨h1, h2⟩
    have h3 : cos (x 0 * 15 - 5 + π) = 1 := by rw [cos_add_pi, h1]; norm_num
    obtain ⟨n, hn⟩ := (cos_eq_one_iff _).1 h3
    have hz : x 0 * 15 - 5 = (2 * n - 1) * π := by linarith
    rw [hz, branin_second] at h2
    have b0 := (hx 0).1
    have b1 := (hx 0).2
    have n0 : -1 < n := by
      by_contra hc
      have : (n : ℝ) ≤ -1 := by exact_mod_cast not_lt.1 hc
      nlinarith
    have n3 : n < 3 := by
      by_contra hc
      have : (3 : ℝ) ≤ n := by exact_mod_cast not_lt.1 hc
      nlinarith
    interval_cases n
    · left
      refine ⟨by push_cast at hz; linarith, ?_⟩
      rw [h2]; norm_num
    · right; left
      refine ⟨by push_cast at hz; linarith, ?_⟩
      rw [h2]; norm_num
    · right; right
      refine ⟨by push_cast at hz; linarith, ?_⟩
      rw [h2]; norm_num
  · have c3 : cos (3 * π) = -1 := by
      rw [show 3 * π = π + 2 * π by ring, cos_add_two_pi, cos_pi]
    rintro (⟨h1, h2⟩ | ⟨h1, h2⟩ | ⟨h1, h2⟩)
    · rw [show x 0 * 15 - 5 = -1 * π by rw [h1]; ring, branin_second, h2]
      exact ⟨by simp, by norm_num⟩
    · rw [show x 0 * 15 - 5 = 1 * π by rw [h1]; ring, branin_second, h2]
      exact ⟨by simp, by norm_num⟩
    · rw [show x 0 * 15 - 5 = 3 * π by rw [h1]; ring, branin_second, h2]
      exact ⟨c3, by norm_num⟩

/-- The third listed solution as evaluated. -/
theorem branin_third : ∃ η : ℝ, 0 < η ∧ η ≤ 2e-6 ∧ (9.42478 : ℝ) = (3 + η) * π := by
  have h1 := pi_gt_d6
  have h2 := pi_lt_d6
  refine ⟨9.42478 / π - 3, ?_, ?_, by field_simp; ring⟩
  · rw [sub_pos, lt_div_iff₀ (by positivity)]
    linarith
  · rw [sub_le_iff_le_add, div_le_iff₀ (by positivity)]
    linarith

/-- The third listed solution of `BraninNormalized`. -/
noncomputable def braninThird : Fin 2 → ℝ := ![(9.42478 + 5) / 15, 2.475 / 15]

theorem braninThird_mem : branin.sols = [![(π + 5) / 15, 2.275 / 15], braninThird] := rfl

theorem cos_third (η : ℝ) : cos ((3 + η) * π) = -cos (η * π) := by
  rw [show (3 + η) * π = η * π + π + 2 * π by ring, cos_add_two_pi, cos_add_pi]

theorem branin_third_le : branin.f braninThird ≤ braninMin + 1e-10 := by
  obtain ⟨η, h0, h1, h2⟩ := branin_third
  simp only [branin, braninMin, braninThird]
  have e : ((![((9.42478 : ℝ) + 5) / 15, 2.475 / 15] : Fin 2 → ℝ) 0) * 15 - 5 = (3 + η) * π := by
    rw [← h2]
    simp
  have e1 : (![((9.42478 : ℝ) + 5) / 15, 2.475 / 15] : Fin 2 → ℝ) 1 * 15 = 2.475 := by
    simp
  rw [e, e1, cos_third]
  have hp := pi_pos
  have e2 : 5.1 * sqr ((3 + η) * π) / (4 * sqr π) = 5.1 * (3 + η) ^ 2 / 4 := by
    simp only [sqr]
    field_simp
  have e3 : 5 * ((3 + η) * π) / π = 5 * (3 + η) := by field_simp
  rw [e2, e3]
  have hc := one_sub_sq_div_two_le_cos (x := η * π)
  have c := branin_coeff
  have c' : 10 - 10 / (8 * π) ≤ 10 := by
    have : 0 < 10 / (8 * π) := by positivity
    linarith
  have hl := pi_lt_d2
  have hηπ : (η * π) ^ 2 ≤ (6.4e-6) ^ 2 := by
    apply pow_le_pow_left₀ (by positivity)
    nlinarith
  have k1 : sqr (2.475 - 5.1 * (3 + η) ^ 2 / 4 + 5 * (3 + η) - 6) ≤ 1e-10 := by
    have : 2.475 - 5.1 * (3 + η) ^ 2 / 4 + 5 * (3 + η) - 6 = -(η * (2.65 + 1.275 * η)) := by ring
    rw [this]
    simp only [sqr]
    have k : η * (2.65 + 1.275 * η) ≤ 6e-6 := by nlinarith
    have k' : 0 ≤ η * (2.65 + 1.275 * η) := by positivity
    nlinarith
  have k2 : (10 - 10 / (8 * π)) * -cos (η * π) ≤ -(10 - 10 / (8 * π)) + 1e-9 := by
    have : (10 - 10 / (8 * π)) * (1 - cos (η * π)) ≤ 10 * (2.1e-11) := by
      apply mul_le_mul c' _ (by linarith [cos_le_one (η * π)]) (by norm_num)
      norm_num at hηπ ⊢
      linarith
    norm_num at this ⊢
    nlinarith
  rw [div_add' _ _ _ (by norm_num), div_le_div_iff_of_pos_right (by norm_num)]
  norm_num at k1 k2 ⊢
  linarith

/-- **C94** (BraninNormalized): the reported accuracy is within `1e-10` of the regret. -/
theorem C94_branin_accuracy (x best : Fin 2 → ℝ) (hb : branin.Minimal best) :
    |branin.accuracy (branin.eval x) - (branin.f x - branin.f best)| ≤ 1e-10 := by
  have e : branin.f best = braninMin := (branin_minimal_iff _).1 hb
  have s0 : branin.f branin.sol ≤ braninMin + 1e-10 := by
    have h : branin.Minimal branin.sol := by
      refine (C94_branin_solutions _ ?_).2 (Or.inl rfl)
      have h1 := pi_gt_three
      have h2 := pi_lt_d2
      intro i
      fin_cases i
      · show 0 ≤ (-π + 5) / 15 ∧ (-π + 5) / 15 ≤ 1
        constructor <;> linarith
      · show (0 : ℝ) ≤ 12.275 / 15 ∧ (12.275 / 15 : ℝ) ≤ 1
        norm_num
    rw [(branin_minimal_iff _).1 h]
    norm_num
  obtain ⟨a, b⟩ := accuracy_near branin braninMin 1e-10 branin_min s0 (by
    intro s hs
    rw [braninThird_mem] at hs
    simp only [List.mem_cons, List.not_mem_nil, or_false] at hs
    rcases hs with rfl | rfl
    · have h : branin.f ![(π + 5) / 15, 2.275 / 15] = braninMin := by
        rw [branin_eq_min]
        have e : ((![(π + 5) / 15, 2.275 / 15] : Fin 2 → ℝ) 0) * 15 - 5 = 1 * π := by
          simp
        rw [e, branin_second]
        refine ⟨by simp, ?_⟩
        simp
        norm_num
      rw [h]
      norm_num
    · exact branin_third_le) x
  rw [e]
  exact abs_le.2 ⟨by linarith, by linarith⟩

/-- **C94** (refutation, BraninNormalized): the third listed solution is not an optimum, and still its reported accuracy is zero. -/
theorem C94_branin_third_not_optimal : ![(9.42478 + 5) / 15, 2.475 / 15] ∈ branin.sols ∧
    ¬ branin.Minimal ![(9.42478 + 5) / 15, 2.475 / 15] ∧
    branin.accuracy (branin.eval ![(9.42478 + 5) / 15, 2.475 / 15]) = 0 := by
  have hm : braninThird ∈ branin.sols := by rw [braninThird_mem]; simp
  refine ⟨hm, ?_, ?_⟩
  · rw [branin_minimal_iff, branin_eq_min]
    rintro ⟨h, _⟩
    obtain ⟨η, h0, h1, h2⟩ := branin_third
    have e : ((![((9.42478 : ℝ) + 5) / 15, 2.475 / 15] : Fin 2 → ℝ) 0) * 15 - 5 = (3 + η) * π := by
      rw [← h2]
      simp
    rw [e, cos_third] at h
    have hp := pi_pos
    have hc : cos (η * π) < 1 := by
      rw [← cos_zero]
      apply cos_lt_cos_of_nonneg_of_le_pi le_rfl _ (by positivity)
      nlinarith
    linarith
  · have nn : ∀ (v : ℝ) (l : List (Fin 2 → ℝ)) (d : ℝ), 0 ≤ d → (d = 0 ∨ ∃ s ∈ l, v + branin.f s = 0) →
        l.foldl (fun minDiff s => let diff := |v + branin.f s|; if diff < minDiff then diff else minDiff) d = 0 := by
      intro v l
      induction l with
      | nil => intro d _ h; simpa using h
      | cons s l ih =>
        intro d hd h
        rw [List.foldl_cons]
        have hnn := abs_nonneg (v + branin.f s)
        apply ih
        · show (0 : ℝ) ≤ if _ then _ else _
          split
          · exact hnn
          · exact hd
        · rcases h with h | ⟨s', hs', hv⟩
          · left
            subst h
            simp [not_lt.2 hnn]
          · rcases List.mem_cons.1 hs' with rfl | hs'
            · left
              simp only [hv, abs_zero]
              split
              · rfl
              · next h => exact le_antisymm (not_lt.1 h) hd
            · exact Or.inr ⟨s', hs', hv⟩
    exact nn _ _ _ (abs_nonneg _) (Or.inr ⟨_, hm, by simp [TestFn.eval, braninThird]⟩)

/-! ### Six-hump camel -/

theorem six_hump_bound (x y : ℝ) :
    -1.0317 ≤ (4 - 2.1 * x ^ 2 + x ^ 4 / 3) * x ^ 2 + x * y + (-4 + 4 * y ^ 2) * y ^ 2 := by
  have key : ∀ c d : ℝ, 0 < d → d = 8 * c - 4 →
      -4 * c ^ 2 - x ^ 2 / (4 * d) + (4 - 2.1 * x ^ 2 + x ^ 4 / 3) * x ^ 2 ≤
        (4 - 2.1 * x ^ 2 + x ^ 4 / 3) * x ^ 2 + x * y + (-4 + 4 * y ^ 2) * y ^ 2 := by
    intro c d hd he
    have h1 : 0 ≤ 4 * (y ^ 2 - c) ^ 2 := by positivity
    have h2 : 0 ≤ d * (y + x / (2 * d)) ^ 2 := by positivity
    have h3 : d * (y + x / (2 * d)) ^ 2 = d * y ^ 2 + x * y + x ^ 2 / (4 * d) := by
      field_simp
      ring
    rw [h3] at h2
    have h4 : 4 * (y ^ 2 - c) ^ 2 + d * y ^ 2 = (-4 + 4 * y ^ 2) * y ^ 2 + 4 * c ^ 2 := by
      rw [he]; ring
    linarith
  have e4 : x ^ 4 = (x ^ 2) ^ 2 := by ring
  have hu : 0 ≤ x ^ 2 := sq_nonneg x
  simp only [e4] at key ⊢
  generalize x ^ 2 = u at key hu ⊢
  rcases le_total u 0.0095 with h | h
  · refine le_trans ?_ (key 0.5078 0.0624 (by norm_num) (by norm_num))
    norm_num at h ⊢
    nlinarith [mul_nonneg hu hu, mul_nonneg hu (sub_nonneg.2 h), mul_nonneg (mul_nonneg hu hu) hu]
  rcases le_total u 0.3109 with h' | h'
  · refine le_trans ?_ (key 0.5093 0.0744 (by norm_num) (by norm_num))
    norm_num at h h' ⊢
    nlinarith [mul_nonneg (sub_nonneg.2 h) (sub_nonneg.2 h'), mul_nonneg hu (mul_nonneg (sub_nonneg.2 h) (sub_nonneg.2 h')),
      mul_nonneg hu hu]
  · refine le_trans ?_ (key 0.5495 0.396 (by norm_num) (by norm_num))
    norm_num at h' ⊢
    nlinarith [mul_nonneg hu (sq_nonneg (u - 3.15)), mul_nonneg (sub_nonneg.2 h') hu, sq_nonneg (u - 3.15),
      mul_nonneg hu (sq_nonneg (u - 2.6))]

theorem six_hump_f (x : Fin 2 → ℝ) : sixHumpCamel.f x =
    (4 - 2.1 * (-3 + 6 * x 0) ^ 2 + (-3 + 6 * x 0) ^ 4 / 3) * (-3 + 6 * x 0) ^ 2 + (-3 + 6 * x 0) * (-2 + 4 * x 1) +
      (-4 + 4 * (-2 + 4 * x 1) ^ 2) * (-2 + 4 * x 1) ^ 2 := by
  simp only [sixHumpCamel, sqr]
  ring

/-- **C94** (SixHumpCamel): the value at every point is above `-1.0317`, the listed solutions are within `1e-4` of the best possible value,
and so is the reported accuracy of the regret. -/
theorem C94_six_hump_camel_accuracy (x : Fin 2 → ℝ) :
    -1.0317 ≤ sixHumpCamel.f x ∧ (∀ s, s = sixHumpCamel.sol ∨ s ∈ sixHumpCamel.sols → sixHumpCamel.f s ≤ -1.0317 + 1e-4) ∧
    |sixHumpCamel.accuracy (sixHumpCamel.eval x) - (sixHumpCamel.f x - ⨅ y, sixHumpCamel.f y)| ≤ 2e-4 := by
  have hb : ∀ y, -1.0317 ≤ sixHumpCamel.f y := by
    intro y
    rw [six_hump_f]
    exact six_hump_bound _ _
  have h0 : sixHumpCamel.f sixHumpCamel.sol ≤ -1.0317 + 1e-4 := by
    rw [six_hump_f]
    simp [sixHumpCamel]
    norm_num
  have h1 : ∀ s ∈ sixHumpCamel.sols, sixHumpCamel.f s ≤ -1.0317 + 1e-4 := by
    intro s hs
    have : s = ![(-0.0898 + 3) / 6, (0.7126 + 2) / 4] := by
      change s ∈ [![(-0.0898 + 3) / 6, (0.7126 + 2) / 4]] at hs
      exact List.mem_singleton.1 hs
    subst this
    rw [six_hump_f]
    simp
    norm_num
  refine ⟨hb x, ?_, ?_⟩
  · rintro s (rfl | hs)
    · exact h0
    · exact h1 s hs
  · have bdd : BddBelow (Set.range sixHumpCamel.f) := ⟨-1.0317, by rintro _ ⟨y, rfl⟩; exact hb y⟩
    have i1 : ⨅ y, sixHumpCamel.f y ≤ sixHumpCamel.f sixHumpCamel.sol := ciInf_le bdd _
    have i2 : -1.0317 ≤ ⨅ y, sixHumpCamel.f y := le_ciInf hb
    obtain ⟨a, b⟩ := accuracy_near sixHumpCamel (-1.0317) 1e-4 hb h0 h1 x
    rw [abs_le]
    norm_num at *
    constructor <;> linarith

/-- **C94** (refutation, SixHumpCamel): the listed solutions are not optima: this point is better, and the accuracy reported for it is
larger than the one reported for the listed solution, which is zero. -/
theorem C94_six_hump_camel_not_optimal :
    sixHumpCamel.f ![(0.08984 + 3) / 6, (-0.71266 + 2) / 4] < sixHumpCamel.f sixHumpCamel.sol ∧
    sixHumpCamel.accuracy (sixHumpCamel.eval sixHumpCamel.sol) = 0 ∧
    0 < sixHumpCamel.accuracy (sixHumpCamel.eval ![(0.08984 + 3) / 6, (-0.71266 + 2) / 4]) := by
  have e : ∀ v, sixHumpCamel.accuracy v = |v + sixHumpCamel.f sixHumpCamel.sol| := by
    intro v
    have h : sixHumpCamel.f ![(-0.0898 + 3) / 6, (0.7126 + 2) / 4] = sixHumpCamel.f sixHumpCamel.sol := by
      rw [six_hump_f, six_hump_f]
      simp [sixHumpCamel]
      norm_num
    show (if |v + sixHumpCamel.f ![(-0.0898 + 3) / 6, (0.7126 + 2) / 4]| < |v + sixHumpCamel.f sixHumpCamel.sol| then _ else _) = _
    rw [h]
    simp
  have h : sixHumpCamel.f ![(0.08984 + 3) / 6, (-0.71266 + 2) / 4] < sixHumpCamel.f sixHumpCamel.sol := by
    rw [six_hump_f, six_hump_f]
    simp [sixHumpCamel]
    norm_num
  refine ⟨h, ?_, ?_⟩
  · rw [e]
    simp [TestFn.eval]
  · rw [e]
    simp only [TestFn.eval]
    exact abs_pos.2 (by linarith)

end Limbo.Bench
