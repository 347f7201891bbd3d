import Verif.Spec.RegFns
import Mathlib.Analysis.SpecialFunctions.Trigonometric.Deriv
import Mathlib.Analysis.SpecialFunctions.Trigonometric.Bounds
import Mathlib.Tactic.LinearCombination
import Mathlib.Tactic.FieldSimp

/-!
C120: the functions of the regression benchmark.
-/

namespace Limbo.Reg

open Real

theorem foldl_sum (g : ℝ → ℝ) : ∀ (l : List ℝ) (c : ℝ), l.foldl (fun f a => f + g a) c = c + (l.map g).sum := by
  intro l
  induction l with
  | nil => intro c; simp
  | cons a l ih => intro c; rw [List.foldl_cons, ih, List.map_cons, List.sum_cons]; ring

theorem foldl_sum2 (g h : ℝ → ℝ) : ∀ (l : List ℝ) (c : ℝ × ℝ),
    l.foldl (fun (p : ℝ × ℝ) a => (p.1 + g a, p.2 + h a)) c = (c.1 + (l.map g).sum, c.2 + (l.map h).sum) := by
  intro l
  induction l with
  | nil => intro c; simp
  | cons a l ih => intro c; rw [List.foldl_cons, ih, List.map_cons, List.sum_cons, List.map_cons, List.sum_cons]; ext <;> simp <;> ring

theorem sum_zero {g : ℝ → ℝ} : ∀ {l : List ℝ}, (∀ a ∈ l, 0 ≤ g a) → 0 ≤ (l.map g).sum ∧ ((l.map g).sum = 0 ↔ ∀ a ∈ l, g a = 0) := by
  intro l
  induction l with
  | nil => intro _; simp
  | cons a l ih =>
    intro h
    obtain ⟨h1, h2⟩ := ih fun b hb => h b (by simp [hb])
    have ha := h a (by simp)
    rw [List.map_cons, List.sum_cons]
    refine ⟨by linarith, fun e => ?_, fun e => ?_⟩
    · have e1 : g a = 0 := by linarith
      have e2 := h2.1 (by linarith)
      intro b hb
      rcases List.mem_cons.1 hb with rfl | hb
      · exact e1
      · exact e2 b hb
    · rw [e a (by simp), h2.2 fun b hb => e b (by simp [hb]), add_zero]

theorem sum_le_length {g : ℝ → ℝ} {c : ℝ} : ∀ {l : List ℝ}, (∀ a, g a ≤ c) → (l.map g).sum ≤ c * l.length := by
  intro l h
  induction l with
  | nil => simp
  | cons a l ih => rw [List.map_cons, List.sum_cons, List.length_cons]; push_cast; linarith [h a]

theorem sum_const {g : ℝ → ℝ} {c : ℝ} : ∀ {l : List ℝ}, (∀ a ∈ l, g a = c) → (l.map g).sum = c * l.length := by
  intro l
  induction l with
  | nil => simp
  | cons a l ih =>
    intro h
    rw [List.map_cons, List.sum_cons, List.length_cons, ih fun b hb => h b (by simp [hb]), h a (by simp)]; push_cast; ring

theorem squaredNorm_zero (x : List ℝ) : 0 ≤ squaredNorm x ∧ (squaredNorm x = 0 ↔ ∀ a ∈ x, a = 0) := by
  obtain ⟨h1, h2⟩ := sum_zero (g := fun a => a * a) (l := x) fun a _ => mul_self_nonneg a
  exact ⟨h1, h2.trans (by simp)⟩

theorem inBox_one {p : ℝ × ℝ} {n : Nat} {c : ℝ} (h1 : p.1 ≤ c) (h2 : c ≤ p.2) : InBox [p] (List.replicate n c) :=
  Or.inl ⟨p, rfl, fun a ha => by rw [(List.mem_replicate.1 ha).2]; exact ⟨h1, h2⟩⟩

theorem rastrigin_eq (x : List ℝ) : rastrigin.f x = some (x.map fun a => a * a + 10 * (1 - cos (2 * π * a))).sum := by
  show some (x.foldl (fun f a => f + (a * a - 10 * cos (2 * π * a))) (10 * x.length)) = _
  rw [foldl_sum (fun a => a * a - 10 * cos (2 * π * a))]
  congr 1
  induction x with
  | nil => simp
  | cons a l ih => simp only [List.map_cons, List.sum_cons, List.length_cons] at ih ⊢; push_cast; linarith

/-- **C120**: Rastrigin's function has the minimum 0, in any dimension, at the origin and nowhere else. -/
theorem C120_rastrigin (n : Nat) : UniqueMin rastrigin (fun x => x.length = n) 0 (List.replicate n 0) := by
  refine ⟨inBox_one (by norm_num) (by norm_num), by simp, fun x hx => ⟨_, rastrigin_eq x, ?_⟩⟩
  have hc : ∀ a : ℝ, 0 ≤ 1 - cos (2 * π * a) := fun a => by linarith [cos_le_one (2 * π * a)]
  obtain ⟨h1, h2⟩ := sum_zero (g := fun a => a * a + 10 * (1 - cos (2 * π * a))) (l := x) fun a _ => by nlinarith [mul_self_nonneg a, hc a]
  refine ⟨h1, h2.trans ?_⟩
  rw [List.eq_replicate_iff]
  refine ⟨fun h => ⟨hx, fun a ha => ?_⟩, fun h a ha => ?_⟩
  · have := h a ha
    have h0 : a * a = 0 := by nlinarith [mul_self_nonneg a, hc a]
    simpa using h0
  · rw [h.2 a ha]; simp

/-- **C120**: Ackley's function has the minimum 0, in any dimension, at the origin and nowhere else. -/
theorem C120_ackley (n : Nat) (hn : 0 < n) : UniqueMin ackley (fun x => x.length = n) 0 (List.replicate n 0) := by
  refine ⟨inBox_one (by norm_num) (by norm_num), by simp, fun x hx => ?_⟩
  have hne : x ≠ [] := by rintro rfl; simp at hx; omega
  have hl : (0:ℝ) < x.length := by rw [hx]; exact_mod_cast hn
  refine ⟨_, by show (if x = [] then none else _) = _; rw [if_neg hne], ?_⟩
  rw [foldl_sum2 (fun a => a * a) (fun a => cos (2 * π * a))]
  simp only [zero_add]
  obtain ⟨s1, s2⟩ := squaredNorm_zero x
  unfold squaredNorm at s1 s2
  generalize hS : (x.map fun a => a * a).sum = S at s1 s2
  have hB : (x.map fun a => cos (2 * π * a)).sum / x.length ≤ 1 := by
    rw [div_le_one hl]
    simpa using sum_le_length (l := x) fun a => cos_le_one (2 * π * a)
  have hA : -0.2 * sqrt (S / x.length) ≤ 0 := by nlinarith [sqrt_nonneg (S / x.length)]
  have eA : exp (-0.2 * sqrt (S / x.length)) ≤ 1 := exp_le_one_iff.2 hA
  have eB := exp_le_exp.2 hB
  refine ⟨by linarith, fun h => ?_, fun h => ?_⟩
  · have e1 : exp (-0.2 * sqrt (S / x.length)) = 1 := by linarith
    have e2 : sqrt (S / x.length) = 0 := by
      have := exp_eq_one_iff _ |>.1 e1
      linarith
    have e3 : S / x.length = 0 := (sqrt_eq_zero (by positivity)).1 e2
    have e4 : S = 0 := by
      rcases div_eq_zero_iff.1 e3 with h | h
      · exact h
      · exact absurd h hl.ne'
    exact List.eq_replicate_iff.2 ⟨hx, s2.1 e4⟩
  · have h0 := (List.eq_replicate_iff.1 h).2
    rw [s2.2 h0, sum_const (c := 1) fun a ha => by rw [h0 a ha]; simp, one_mul, div_self hl.ne']
    simp only [zero_div, sqrt_zero, mul_zero, exp_zero]; ring

/-- **C120**: Bukin's function N. 6 has the minimum 0 at `(-10, 1)` and nowhere else. -/
theorem C120_bukin : UniqueMin bukin (fun x => x.length = 2) 0 [-10, 1] := by
  refine ⟨Or.inr ⟨by simp [bukin], ?_⟩, rfl, fun x hx => ?_⟩
  · refine .cons (by norm_num) (.cons (by norm_num) .nil)
  obtain ⟨a, b, rfl⟩ := List.length_eq_two.1 hx
  refine ⟨_, rfl, by positivity, fun h => ?_, fun h => ?_⟩
  · have h1 := sqrt_nonneg |b - 0.01 * a * a|
    have h2 := abs_nonneg (a + 10)
    have e1 : sqrt |b - 0.01 * a * a| = 0 := by linarith
    have e2 : |a + 10| = 0 := by linarith
    have e3 := abs_eq_zero.1 ((sqrt_eq_zero (abs_nonneg _)).1 e1)
    have e4 := abs_eq_zero.1 e2
    have ha : a = -10 := by linarith
    subst ha
    have hb : b = 1 := by linarith
    rw [hb]
  · obtain ⟨ha, h⟩ := List.cons_eq_cons.1 h
    obtain ⟨hb, -⟩ := List.cons_eq_cons.1 h
    rw [ha, hb]; norm_num

/-- **C120**: the drop-wave function has the minimum -1 at the origin and nowhere else. -/
theorem C120_drop_wave : UniqueMin dropWave (fun x => x.length = 2) (-1) [0, 0] := by
  refine ⟨inBox_one (n := 2) (by norm_num) (by norm_num), rfl, fun x hx => ⟨_, rfl, ?_⟩⟩
  obtain ⟨s1, s2⟩ := squaredNorm_zero x
  have hc := cos_le_one (12 * norm x)
  have hp : 0 < 0.5 * squaredNorm x + 2 := by linarith
  refine ⟨?_, fun h => ?_, fun h => ?_⟩
  · rw [le_div_iff₀ hp]; linarith
  · rw [div_eq_iff hp.ne'] at h
    exact (List.eq_replicate_iff (n := 2)).2 ⟨hx, s2.1 (by linarith)⟩
  · subst h
    norm_num [norm, squaredNorm]

/-- **C120**: Levy's function has the minimum 0, in any dimension, at `(1, …, 1)` and nowhere else. -/
theorem C120_levy (n : Nat) (hn : 0 < n) : UniqueMin levy (fun x => x.length = n) 0 (List.replicate n 1) := by
  refine ⟨inBox_one (by norm_num) (by norm_num), by simp, fun x hx => ?_⟩
  have hne : x ≠ [] := by rintro rfl; simp at hx; omega
  generalize hw : (x.map fun a => 1 + (a - 1) / 4) = w
  have hwne : w ≠ [] := by rw [← hw]; simpa using hne
  have hws : (∀ a ∈ w, a = 1) ↔ x = List.replicate n 1 := by
    rw [List.eq_replicate_iff, ← hw]
    refine ⟨fun h => ⟨hx, fun a ha => ?_⟩, fun h a ha => ?_⟩
    · have := h _ (List.mem_map_of_mem ha)
      linarith
    · obtain ⟨b, hb, rfl⟩ := List.mem_map.1 ha
      rw [h.2 b hb]; norm_num
  have hf : levy.f x = some (sin (π * w.head hwne) * sin (π * w.head hwne) + levyB w +
      (w.getLast hwne - 1) * (w.getLast hwne - 1) * (1 + sin (2 * π * w.getLast hwne) * sin (2 * π * w.getLast hwne))) := by
    simp only [levy, hw, List.head?_eq_some_head hwne, List.getLast?_eq_some_getLast hwne]
  refine ⟨_, hf, ?_⟩
  unfold levyB
  rw [foldl_sum (fun a => (a - 1) * (a - 1) * (1 + 10 * sin (π * a + 1) * sin (π * a + 1))), zero_add]
  have hg : ∀ a : ℝ, 0 < 1 + 10 * sin (π * a + 1) * sin (π * a + 1) := fun a => by nlinarith [mul_self_nonneg (sin (π * a + 1))]
  obtain ⟨b1, b2⟩ := sum_zero (g := fun a => (a - 1) * (a - 1) * (1 + 10 * sin (π * a + 1) * sin (π * a + 1))) (l := w.dropLast)
    fun a _ => mul_nonneg (mul_self_nonneg _) (hg a).le
  have hA := mul_self_nonneg (sin (π * w.head hwne))
  have hq : 0 < 1 + sin (2 * π * w.getLast hwne) * sin (2 * π * w.getLast hwne) := by nlinarith [mul_self_nonneg (sin (2 * π * w.getLast hwne))]
  have hC := mul_nonneg (mul_self_nonneg (w.getLast hwne - 1)) hq.le
  refine ⟨by linarith, fun h => ?_, fun h => ?_⟩
  · have e1 := b2.1 (by linarith)
    have e2 : (w.getLast hwne - 1) * (w.getLast hwne - 1) * (1 + sin (2 * π * w.getLast hwne) * sin (2 * π * w.getLast hwne)) = 0 := by linarith
    refine hws.1 fun a ha => ?_
    rw [← List.dropLast_append_getLast hwne, List.mem_append, List.mem_singleton] at ha
    rcases ha with ha | rfl
    · have := (mul_eq_zero.1 (e1 a ha)).resolve_right (hg a).ne'
      have := mul_self_eq_zero.1 this
      linarith
    · have := (mul_eq_zero.1 e2).resolve_right hq.ne'
      have := mul_self_eq_zero.1 this
      linarith
  · have h1 := hws.2 h
    rw [b2.2 fun a ha => by rw [h1 a (List.mem_of_mem_dropLast ha)]; simp, h1 _ (List.head_mem hwne), h1 _ (List.getLast_mem hwne)]
    simp

/-- **C120**: the cross-in-tray function is at most `-0.0001`, which it takes exactly where a coordinate is a multiple of `π`, and it is
symmetric under reflections and the exchange of the coordinates. -/
theorem C120_cross_in_tray (a b : ℝ) : ∃ y, crossInTray.f [a, b] = some y ∧ y ≤ -0.0001 ∧
    (y = -0.0001 ↔ (∃ k : ℤ, a = k * π) ∨ ∃ k : ℤ, b = k * π) ∧
    crossInTray.f [b, a] = some y ∧ crossInTray.f [-a, b] = some y ∧ crossInTray.f [a, -b] = some y := by
  refine ⟨_, rfl, ?_, ?_, ?_, ?_, ?_⟩
  · generalize exp |100 - norm [a, b] / π| = B
    have : (1:ℝ) ≤ (|sin a * sin b * B| + 1) ^ (0.1 : ℝ) := one_le_rpow (by linarith [abs_nonneg (sin a * sin b * B)]) (by norm_num)
    linarith
  · generalize hB : exp |100 - norm [a, b] / π| = B
    have hB0 : 0 < B := hB ▸ exp_pos _
    have hsin : ∀ t : ℝ, sin t = 0 ↔ ∃ k : ℤ, t = k * π := fun t => by
      rw [sin_eq_zero_iff]; exact ⟨fun ⟨k, h⟩ => ⟨k, h.symm⟩, fun ⟨k, h⟩ => ⟨k, h.symm⟩⟩
    rw [← hsin, ← hsin, ← mul_eq_zero]
    constructor
    · intro h
      have h1 : (|sin a * sin b * B| + 1) ^ (0.1 : ℝ) = 1 := by linarith
      by_contra hne
      have : 0 < |sin a * sin b * B| := abs_pos.2 (mul_ne_zero hne hB0.ne')
      have := one_lt_rpow (x := |sin a * sin b * B| + 1) (z := 0.1) (by linarith) (by norm_num)
      linarith
    · intro h; rw [h]; norm_num
  · simp only [crossInTray, norm, squaredNorm, List.map_cons, List.map_nil, List.sum_cons, List.sum_nil]
    rw [mul_comm (sin b), show b * b + (a * a + 0) = a * a + (b * b + 0) by ring]
  · simp only [crossInTray, norm, squaredNorm, List.map_cons, List.map_nil, List.sum_cons, List.sum_nil, sin_neg, neg_mul, neg_mul_neg, mul_neg, neg_neg, abs_neg]
  · simp only [crossInTray, norm, squaredNorm, List.map_cons, List.map_nil, List.sum_cons, List.sum_nil, sin_neg, neg_mul, neg_mul_neg, mul_neg, neg_neg, abs_neg]

/-- **C120**: the Hölder table function is at most 0, which it takes exactly where `sin x₀ cos x₁ = 0`, and it is symmetric under reflections. -/
theorem C120_holder_table (a b : ℝ) : ∃ y, holderTable.f [a, b] = some y ∧ y ≤ 0 ∧ (y = 0 ↔ sin a = 0 ∨ cos b = 0) ∧
    holderTable.f [-a, b] = some y ∧ holderTable.f [a, -b] = some y := by
  refine ⟨_, rfl, ?_, ?_, ?_, ?_⟩
  · exact neg_nonpos.2 (abs_nonneg _)
  · simp [exp_ne_zero]
  · simp only [holderTable, norm, squaredNorm, List.map_cons, List.map_nil, List.sum_cons, List.sum_nil, sin_neg, neg_mul, mul_neg, neg_neg, abs_neg]
  · simp only [holderTable, norm, squaredNorm, List.map_cons, List.map_nil, List.sum_cons, List.sum_nil, cos_neg, neg_mul, mul_neg, neg_neg]

/-- **C120**: this `Hartmann6` is positive and at most `1 + 1.2 + 3 + 3.2` everywhere: it is *minus* the function of the page its comment cites,
a function to be maximized. -/
theorem C120_hartmann6 (x : List ℝ) (hx : x.length = 6) : ∃ y, hartmann6.f x = some y ∧ 0 < y ∧ y ≤ 8.4 := by
  match x, hx with
  | [a, b, c, d, e, f], _ =>
    refine ⟨_, rfl, ?_, ?_⟩ <;>
      simp only [hartA, hartP, List.zip_cons_cons, List.zip_nil_right, List.zipWith_cons_cons, List.zipWith_nil_left, List.zip_nil_left, List.foldl_cons, List.foldl_nil, zero_add, List.zipWith_nil_right]
    · positivity
    · have hs : ∀ s : ℝ, 0 ≤ s → exp (-s) ≤ 1 := fun s hs => exp_le_one_iff.2 (by linarith)
      have hk : ∀ k p t : ℝ, 0 ≤ k → 0 ≤ k * (t - p) * (t - p) := fun k p t hk => by rw [mul_assoc]; exact mul_nonneg hk (mul_self_nonneg _)
      have h6 : ∀ {a b c d e f : ℝ}, 0 ≤ a → 0 ≤ b → 0 ≤ c → 0 ≤ d → 0 ≤ e → 0 ≤ f → exp (-(a + b + c + d + e + f)) ≤ 1 :=
        fun ha hb hc hd he hf => hs _ (by linarith)
      refine le_trans (add_le_add (add_le_add (add_le_add (mul_le_mul_of_nonneg_left (h6 ?_ ?_ ?_ ?_ ?_ ?_) ?_) (mul_le_mul_of_nonneg_left (h6 ?_ ?_ ?_ ?_ ?_ ?_) ?_))
        (mul_le_mul_of_nonneg_left (h6 ?_ ?_ ?_ ?_ ?_ ?_) ?_)) (mul_le_mul_of_nonneg_left (h6 ?_ ?_ ?_ ?_ ?_ ?_) ?_)) ?_
      all_goals first | (apply hk; norm_num; done) | norm_num

/-- **C120**: `Hartmann6` is minus the function of the page its comment cites. -/
theorem C120_hartmann6_page (x : Fin 6 → ℝ) : hartmann6.f (List.ofFn x) = some (-hartmannPage x) := by
  have hx : List.ofFn x = [x 0, x 1, x 2, x 3, x 4, x 5] := by simp [List.ofFn_succ, Fin.succ]
  rw [hx]
  simp only [hartmann6, List.length_cons, List.length_nil, hartA, hartP, List.zip_cons_cons, List.zip_nil_right, List.zipWith_cons_cons, List.zipWith_nil_left,
    List.zip_nil_left, List.foldl_cons, List.foldl_nil, zero_add, List.zipWith_nil_right]
  rw [if_neg (by norm_num)]
  simp only [hartmannPage, neg_neg, Fin.sum_univ_succ, Fin.sum_univ_zero, Option.some.injEq]
  simp [Fin.succ]
  norm_num
  ring_nf

/-- the peak of height 3.2 -/
example : ∃ y, hartmann6.f (List.ofFn ![0.4047, 0.8828, 0.8732, 0.5743, 0.1091, 0.0381]) = some y ∧ -hartmannPage ![0.4047, 0.8828, 0.8732, 0.5743, 0.1091, 0.0381] = y :=
  ⟨_, C120_hartmann6_page _, rfl⟩

/-- **C120**: the robot arm: the distance of its tip from the shoulder.  It does not depend on the shoulder's angle, is at most the total length of
the segments, and equals it for the stretched arm. -/
theorem C120_robot_arm (q0 q1 q2 q3 l0 l1 l2 l3 : ℝ) (h0 : 0 ≤ l0) (h1 : 0 ≤ l1) (h2 : 0 ≤ l2) (h3 : 0 ≤ l3) :
    ∃ y, robotArm.f [q0, q1, q2, q3, l0, l1, l2, l3] = some y ∧ 0 ≤ y ∧ y ≤ l0 + l1 + l2 + l3 ∧
      (∀ q, robotArm.f [q, q1, q2, q3, l0, l1, l2, l3] = some y) ∧
      (q1 = 0 → q2 = 0 → q3 = 0 → y = l0 + l1 + l2 + l3) := by
  have key : ∀ q : ℝ, robotArm.f [q, q1, q2, q3, l0, l1, l2, l3] = robotArm.f [0, q1, q2, q3, l0, l1, l2, l3] := by
    intro q
    simp only [robotArm, List.foldl_cons, List.foldl_nil, zero_add]
    have e1 : q + q1 + q2 + q3 = q + (q1 + q2 + q3) := by ring
    have e2 : q + q1 + q2 = q + (q1 + q2) := by ring
    rw [e1, e2, cos_add q, cos_add q, cos_add q, sin_add q, sin_add q, sin_add q, cos_zero, sin_zero]
    congr 2
    linear_combination (((l0 + l1 * cos q1 + l2 * cos (q1 + q2) + l3 * cos (q1 + q2 + q3)) ^ 2 + (l1 * sin q1 + l2 * sin (q1 + q2) + l3 * sin (q1 + q2 + q3)) ^ 2)) *
      (sin_sq_add_cos_sq q)
  refine ⟨_, rfl, sqrt_nonneg _, ?_, fun q => (key q).trans (key q0).symm, ?_⟩
  · simp only [List.foldl_cons, List.foldl_nil, zero_add]
    generalize hu : l0 * cos q0 + l1 * cos (q0 + q1) + l2 * cos (q0 + q1 + q2) + l3 * cos (q0 + q1 + q2 + q3) = u
    generalize hv : l0 * sin q0 + l1 * sin (q0 + q1) + l2 * sin (q0 + q1 + q2) + l3 * sin (q0 + q1 + q2 + q3) = v
    have hR := sq_sqrt (show 0 ≤ v * v + u * u by nlinarith [mul_self_nonneg u, mul_self_nonneg v])
    have hR0 := sqrt_nonneg (v * v + u * u)
    have hb : ∀ t : ℝ, u * cos t + v * sin t ≤ sqrt (v * v + u * u) := by
      intro t
      refine le_sqrt_of_sq_le ?_
      nlinarith [sq_nonneg (u * sin t - v * cos t), sin_sq_add_cos_sq t]
    generalize sqrt (v * v + u * u) = R at *
    have hRL : R * R ≤ (l0 + l1 + l2 + l3) * R := by
      have : u * u + v * v = l0 * (u * cos q0 + v * sin q0) + l1 * (u * cos (q0 + q1) + v * sin (q0 + q1)) + l2 * (u * cos (q0 + q1 + q2) + v * sin (q0 + q1 + q2))
          + l3 * (u * cos (q0 + q1 + q2 + q3) + v * sin (q0 + q1 + q2 + q3)) := by
        nth_rewrite 2 [← hu]; nth_rewrite 2 [← hv]; ring
      nlinarith [mul_le_mul_of_nonneg_left (hb q0) h0, mul_le_mul_of_nonneg_left (hb (q0 + q1)) h1, mul_le_mul_of_nonneg_left (hb (q0 + q1 + q2)) h2,
        mul_le_mul_of_nonneg_left (hb (q0 + q1 + q2 + q3)) h3]
    rcases hR0.eq_or_lt with h | h
    · rw [← h]; linarith
    · exact le_of_mul_le_mul_right hRL h
  · rintro rfl rfl rfl
    simp only [List.foldl_cons, List.foldl_nil, zero_add, add_zero]
    rw [show (l0 * sin q0 + l1 * sin q0 + l2 * sin q0 + l3 * sin q0) * (l0 * sin q0 + l1 * sin q0 + l2 * sin q0 + l3 * sin q0) +
      (l0 * cos q0 + l1 * cos q0 + l2 * cos q0 + l3 * cos q0) * (l0 * cos q0 + l1 * cos q0 + l2 * cos q0 + l3 * cos q0) = (l0 + l1 + l2 + l3) ^ 2 by
        linear_combination (l0 + l1 + l2 + l3) ^ 2 * sin_sq_add_cos_sq q0]
    exact sqrt_sq (by linarith)

/-- **C120**: the piston.  For positive parameters there is a volume `V > 0` at which the force of the gas balances the atmosphere, the weight and the
spring, and the value is the period `2π √(M / K)` of small oscillations about it, with `K > 0` the rate at which the resisting force grows with the
displacement. -/
theorem C120_piston (M S V0 k P0 Ta T0 : ℝ) (hM : 0 < M) (hS : 0 < S) (hV0 : 0 < V0) (hk : 0 < k) (hP0 : 0 < P0) (hTa : 0 < Ta) (hT0 : 0 < T0) :
    ∃ y V K, piston.f [M, S, V0, k, P0, Ta, T0] = some y ∧ 0 < V ∧ 0 < K ∧
      P0 * V0 / T0 * (Ta / V) * S = P0 * S + 19.62 * M + k * (V - V0) / S ∧
      HasDerivAt (fun z => P0 * S + 19.62 * M + k * (V + S * z - V0) / S - P0 * V0 / T0 * (Ta / (V + S * z)) * S) K 0 ∧
      y = 2 * π * sqrt (M / K) := by
  generalize hA : P0 * S + 19.62 * M - k * V0 / S = A
  have hQ : 0 < 4 * k * P0 * V0 * Ta / T0 := by positivity
  have hr : |A| < sqrt (A * A + 4 * k * P0 * V0 * Ta / T0) := by
    rw [← sqrt_sq_eq_abs]
    exact sqrt_lt_sqrt (sq_nonneg A) (by nlinarith)
  have hsq := sq_sqrt (show 0 ≤ A * A + 4 * k * P0 * V0 * Ta / T0 by nlinarith [mul_self_nonneg A])
  generalize hR : sqrt (A * A + 4 * k * P0 * V0 * Ta / T0) = R at *
  have hRA : 0 < R - A := by linarith [le_abs_self A]
  have hV : 0 < S * (R - A) / (2 * k) := by positivity
  refine ⟨_, S * (R - A) / (2 * k), k + S * S * P0 * V0 * Ta / (T0 * (S * (R - A) / (2 * k)) * (S * (R - A) / (2 * k))), rfl, hV, by positivity, ?_, ?_, ?_⟩
  · generalize hVe : S * (R - A) / (2 * k) = V at *
    have hR2 : R = 2 * k * V / S + A := by rw [← hVe]; field_simp; ring
    have hbal : k * V * V / (S * S) + A * V / S = P0 * V0 * Ta / T0 := by
      rw [hR2] at hsq
      have : 4 * k * (k * V * V / (S * S) + A * V / S) = 4 * k * (P0 * V0 * Ta / T0) := by
        have e : (2 * k * V / S + A) ^ 2 - A * A = 4 * k * (k * V * V / (S * S) + A * V / S) := by field_simp; ring
        rw [← e, hsq]; field_simp; ring
      exact mul_left_cancel₀ (by positivity) this
    have e1 : P0 * V0 / T0 * (Ta / V) * S = (P0 * V0 * Ta / T0) * S / V := by field_simp
    rw [e1, ← hbal, show P0 * S + 19.62 * M + k * (V - V0) / S = A + k * V / S by rw [← hA]; field_simp; ring]
    field_simp; ring
  · generalize S * (R - A) / (2 * k) = V at *
    have d1 : HasDerivAt (fun z : ℝ => V + S * z) S 0 := by simpa using ((hasDerivAt_id (0:ℝ)).const_mul S).const_add V
    have hne : V + S * 0 ≠ 0 := by simpa using hV.ne'
    have d2 := (((d1.sub_const V0).const_mul k).div_const S).const_add (P0 * S + 19.62 * M)
    have d3 := (((hasDerivAt_const (0:ℝ) Ta).fun_div d1 hne).const_mul (P0 * V0 / T0)).mul_const S
    refine (d2.fun_sub d3).congr_deriv ?_
    simp only [mul_zero, add_zero, zero_mul, zero_sub]
    field_simp
    ring
  · simp only [hA, hR]

/-- **C120**: the two torques are those of the Euler–Lagrange equations for the kinetic energy of the arm: along every motion, for each joint, the torque
is the rate of change of the momentum (the derivative of the energy in the joint's velocity) minus the derivative of the energy in the joint's angle. -/
theorem C120_arm_dynamics (q0 q1 w0 w1 a0 a1 : ℝ → ℝ) (h0 : ∀ t, HasDerivAt q0 (w0 t) t) (h1 : ∀ t, HasDerivAt q1 (w1 t) t)
    (g0 : ∀ t, HasDerivAt w0 (a0 t) t) (g1 : ∀ t, HasDerivAt w1 (a1 t) t) (t : ℝ) :
    ∃ τ0 τ1, planarI.f [a0 t, a1 t, w0 t, w1 t, q0 t, q1 t] = some τ0 ∧ planarII.f [a0 t, a1 t, w0 t, w1 t, q0 t, q1 t] = some τ1 ∧
      (∃ p : ℝ → ℝ, ∃ G, (∀ s, HasDerivAt (fun v => kinetic (q0 s) (q1 s) v (w1 s)) (p s) (w0 s)) ∧
        HasDerivAt (fun θ => kinetic θ (q1 t) (w0 t) (w1 t)) G (q0 t) ∧ HasDerivAt p (τ0 + G) t) ∧
      (∃ p : ℝ → ℝ, ∃ G, (∀ s, HasDerivAt (fun v => kinetic (q0 s) (q1 s) (w0 s) v) (p s) (w1 s)) ∧
        HasDerivAt (fun θ => kinetic (q0 t) θ (w0 t) (w1 t)) G (q1 t) ∧ HasDerivAt p (τ1 + G) t) := by
  have hK : ∀ x y u v : ℝ, kinetic x y u v = (5 / 24 + cos y / 8) / 2 * u ^ 2 + (1 / 24 + cos y / 16) * u * v + 1 / 48 * v ^ 2 := by
    intro x y u v
    have e : cos y = cos (x + y) * cos x + sin (x + y) * sin x := by
      rw [← cos_sub]; congr 1; ring
    unfold kinetic
    simp only
    rw [e]
    linear_combination (1 / 32 * u ^ 2 / 2 + 1 / 16 * u ^ 2) * sin_sq_add_cos_sq x + (u + v) ^ 2 / 64 * sin_sq_add_cos_sq (x + y)
  have hA : armA = 5 / 24 := by norm_num [armA]
  have hB : armB = 1 / 16 := by norm_num [armB]
  have hD : armDelta = 1 / 24 := by norm_num [armDelta]
  have hc := (h1 t).cos
  refine ⟨_, _, rfl, rfl, ⟨fun s => (5 / 24 + cos (q1 s) / 8) * w0 s + (1 / 24 + cos (q1 s) / 16) * w1 s, 0, fun s => ?_, ?_, ?_⟩,
    ⟨fun s => (1 / 24 + cos (q1 s) / 16) * w0 s + 1 / 24 * w1 s, -sin (q1 t) / 16 * w0 t ^ 2 - sin (q1 t) / 16 * w0 t * w1 t, fun s => ?_, ?_, ?_⟩⟩
  · simp only [hK]
    have d := (((hasDerivAt_pow 2 (w0 s)).const_mul ((5 / 24 + cos (q1 s) / 8) / 2)).fun_add
      (((hasDerivAt_id (w0 s)).const_mul (1 / 24 + cos (q1 s) / 16)).mul_const (w1 s))).add_const (1 / 48 * w1 s ^ 2)
    refine d.congr_deriv ?_
    norm_num; ring
  · simp only [hK]; exact hasDerivAt_const _ _
  · have d := (((hc.div_const 8).const_add (5 / 24)).fun_mul (g0 t)).fun_add (((hc.div_const 16).const_add (1 / 24)).fun_mul (g1 t))
    refine d.congr_deriv ?_
    simp only [armTau, hA, hB, hD]; ring
  · simp only [hK]
    have d := (((hasDerivAt_id (w1 s)).const_mul ((1 / 24 + cos (q1 s) / 16) * w0 s)).fun_add ((hasDerivAt_pow 2 (w1 s)).const_mul (1 / 48))).const_add
      ((5 / 24 + cos (q1 s) / 8) / 2 * w0 s ^ 2)
    refine (d.congr_deriv ?_).congr_of_eventuallyEq (Filter.Eventually.of_forall fun v => ?_)
    · norm_num; ring
    · simp only [id]; ring
  · simp only [hK]
    have dc := hasDerivAt_cos (q1 t)
    have d := ((((dc.div_const 8).const_add (5 / 24)).div_const 2).mul_const (w0 t ^ 2)).fun_add
      ((((dc.div_const 16).const_add (1 / 24)).mul_const (w0 t)).mul_const (w1 t)) |>.add_const (1 / 48 * w1 t ^ 2)
    refine d.congr_deriv ?_
    ring
  · have d := (((hc.div_const 16).const_add (1 / 24)).fun_mul (g0 t)).fun_add ((g1 t).const_mul (1 / 24))
    refine d.congr_deriv ?_
    simp only [armTau, hA, hB, hD]; ring

theorem forall₂_scale : ∀ {b : List (ℝ × ℝ)} {u : List ℝ}, b.length = u.length → (∀ p ∈ b, p.1 ≤ p.2) → (∀ a ∈ u, 0 ≤ a ∧ a ≤ 1) →
    List.Forall₂ (fun p a => p.1 ≤ a ∧ a ≤ p.2) b (List.zipWith (fun a p => a * (p.2 - p.1) + p.1) u b) := by
  intro b
  induction b with
  | nil => intro u h _ _; cases u <;> simp_all
  | cons p b ih =>
    intro u h hb hu
    cases u with
    | nil => simp at h
    | cons a u =>
      have ha := hu a (by simp)
      have hp := hb p (by simp)
      refine .cons ⟨?_, ?_⟩ (ih (by simpa using h) (fun q hq => hb q (by simp [hq])) fun c hc => hu c (by simp [hc]))
      · nlinarith
      · nlinarith

/-- **C120**: every point the benchmark draws for one of these functions, in a dimension the function accepts, lies in its box, and the function is
defined there: no coefficient outside the vector is read. -/
theorem C120_draws (F : RegFn) (hF : F ∈ [rastrigin, ackley, bukin, crossInTray, dropWave, holderTable, levy, hartmann6, robotArm, piston, planarI, planarII])
    (u : List ℝ) (hu : ∀ a ∈ u, 0 ≤ a ∧ a ≤ 1) (hne : u ≠ []) (hd : 0 < F.dims → (u.length : Int) = F.dims) :
    ∃ x y, scale F.bounds u = some x ∧ InBox F.bounds x ∧ x.length = u.length ∧ F.f x = some y := by
  have one : ∀ p : ℝ × ℝ, p.1 ≤ p.2 → ∃ x, scale [p] u = some x ∧ InBox [p] x ∧ x.length = u.length := by
    intro p hp
    refine ⟨_, rfl, Or.inl ⟨p, rfl, fun a ha => ?_⟩, by simp⟩
    obtain ⟨b, hb, rfl⟩ := List.mem_map.1 ha
    have := hu b hb
    constructor <;> nlinarith
  have many : ∀ b : List (ℝ × ℝ), 2 ≤ b.length → b.length = u.length → (∀ p ∈ b, p.1 ≤ p.2) → ∃ x, scale b u = some x ∧ InBox b x ∧ x.length = u.length := by
    intro b hb hl hp
    refine ⟨List.zipWith (fun a p => a * (p.2 - p.1) + p.1) u b, ?_, Or.inr ⟨by omega, forall₂_scale hl hp hu⟩, by simp [hl]⟩
    unfold scale
    split
    · simp at hb
    · rw [if_pos hl.ge]
  have hpi := pi_pos
  have l2 : ∀ {x : List ℝ}, x.length = 2 → ∃ a b, x = [a, b] := fun h => List.length_eq_two.1 h
  simp only [List.mem_cons, List.not_mem_nil, or_false] at hF
  rcases hF with rfl | rfl | rfl | rfl | rfl | rfl | rfl | rfl | rfl | rfl | rfl | rfl
  · obtain ⟨x, h1, h2, h3⟩ := one (-5.12, 5.12) (by norm_num)
    exact ⟨x, _, h1, h2, h3, rfl⟩
  · obtain ⟨x, h1, h2, h3⟩ := one (-32.768, 32.768) (by norm_num)
    have hl : 0 < u.length := List.length_pos_of_ne_nil hne
    obtain ⟨y, hy, -⟩ := (C120_ackley u.length hl).2.2 x h3
    exact ⟨x, y, h1, h2, h3, hy⟩
  · have hl : u.length = 2 := by have : (u.length : Int) = 2 := hd (show (0:Int) < 2 by norm_num); omega
    obtain ⟨x, h1, h2, h3⟩ := many [(-15, 5), (-3, 3)] (by simp) (by simp [hl]) (by norm_num)
    obtain ⟨a, b, rfl⟩ := l2 (h3.trans hl)
    exact ⟨_, _, h1, h2, h3, rfl⟩
  · have hl : u.length = 2 := by have : (u.length : Int) = 2 := hd (show (0:Int) < 2 by norm_num); omega
    obtain ⟨x, h1, h2, h3⟩ := one (-10, 10) (by norm_num)
    obtain ⟨a, b, rfl⟩ := l2 (h3.trans hl)
    exact ⟨_, _, h1, h2, h3, rfl⟩
  · obtain ⟨x, h1, h2, h3⟩ := one (-5.12, 5.12) (by norm_num)
    exact ⟨x, _, h1, h2, h3, rfl⟩
  · have hl : u.length = 2 := by have : (u.length : Int) = 2 := hd (show (0:Int) < 2 by norm_num); omega
    obtain ⟨x, h1, h2, h3⟩ := one (-10, 10) (by norm_num)
    obtain ⟨a, b, rfl⟩ := l2 (h3.trans hl)
    exact ⟨_, _, h1, h2, h3, rfl⟩
  · obtain ⟨x, h1, h2, h3⟩ := one (-10, 10) (by norm_num)
    have hl : 0 < u.length := List.length_pos_of_ne_nil hne
    obtain ⟨y, hy, -⟩ := (C120_levy u.length hl).2.2 x h3
    exact ⟨x, y, h1, h2, h3, hy⟩
  · have hl : u.length = 6 := by have : (u.length : Int) = 6 := hd (show (0:Int) < 6 by norm_num); omega
    obtain ⟨x, h1, h2, h3⟩ := one (0, 1) (by norm_num)
    obtain ⟨y, hy, -⟩ := C120_hartmann6 x (h3.trans hl)
    exact ⟨x, y, h1, h2, h3, hy⟩
  · have hl : u.length = 8 := by have : (u.length : Int) = 8 := hd (show (0:Int) < 8 by norm_num); omega
    obtain ⟨x, h1, h2, h3⟩ := many [(0, 2 * π), (0, 2 * π), (0, 2 * π), (0, 2 * π), (0, 1), (0, 1), (0, 1), (0, 1)] (by simp) (by simp [hl]) (by simp [hpi.le])
    have h8 := h3.trans hl
    match x, h8 with
    | [_, _, _, _, _, _, _, _], _ => exact ⟨_, _, h1, h2, h3, rfl⟩
  · have hl : u.length = 7 := by have : (u.length : Int) = 7 := hd (show (0:Int) < 7 by norm_num); omega
    obtain ⟨x, h1, h2, h3⟩ := many [(30, 60), (0.005, 0.020), (0.002, 0.010), (1000, 5000), (90000, 110000), (290, 296), (340, 360)] (by simp) (by simp [hl]) (by norm_num)
    have h7 := h3.trans hl
    match x, h7 with
    | [_, _, _, _, _, _, _], _ => exact ⟨_, _, h1, h2, h3, rfl⟩
  · have hl : u.length = 6 := by have : (u.length : Int) = 6 := hd (show (0:Int) < 6 by norm_num); omega
    obtain ⟨x, h1, h2, h3⟩ := many (List.replicate 4 (-2 * π, 2 * π) ++ List.replicate 2 (-π, π)) (by simp) (by simp [hl])
      (by simp only [List.mem_append, List.mem_replicate]; rintro p (⟨-, rfl⟩ | ⟨-, rfl⟩) <;> simp only <;> linarith)
    have h6 := h3.trans hl
    match x, h6 with
    | [_, _, _, _, _, _], _ => exact ⟨_, _, h1, h2, h3, rfl⟩
  · have hl : u.length = 6 := by have : (u.length : Int) = 6 := hd (show (0:Int) < 6 by norm_num); omega
    obtain ⟨x, h1, h2, h3⟩ := many (List.replicate 4 (-2 * π, 2 * π) ++ List.replicate 2 (-π, π)) (by simp) (by simp [hl])
      (by simp only [List.mem_append, List.mem_replicate]; rintro p (⟨-, rfl⟩ | ⟨-, rfl⟩) <;> simp only <;> linarith)
    have h6 := h3.trans hl
    match x, h6 with
    | [_, _, _, _, _, _], _ => exact ⟨_, _, h1, h2, h3, rfl⟩

/-- **C120**: the noise added to two or more observations has a twentieth of their standard deviation: `400 σ² (n - 1)` is the sum of the squared distances
from the mean. -/
theorem C120_noise (obs : List ℝ) (h : 2 ≤ obs.length) : ∃ σ, noiseDev obs = some σ ∧ 0 ≤ σ ∧
    400 * σ ^ 2 * (obs.length - 1) = (obs.map fun y => (y - obs.sum / obs.length) ^ 2).sum := by
  have hn : (2:ℝ) ≤ obs.length := by exact_mod_cast h
  have hs : ∀ (c : ℝ) (l : List ℝ), (l.map fun y => (y - c) ^ 2).sum = (l.map fun y => y * y).sum - 2 * c * l.sum + l.length * (c * c) := by
    intro c l
    induction l with
    | nil => simp
    | cons a l ih => simp only [List.map_cons, List.sum_cons, List.length_cons]; rw [ih]; push_cast; ring
  have h1 := foldl_sum (fun a => a) obs 0
  have h2 := foldl_sum (fun a => a * a) obs 0
  rw [zero_add, List.map_id'] at h1
  rw [zero_add] at h2
  have hc : sampleCov obs = some ((obs.map fun y => (y - obs.sum / obs.length) ^ 2).sum / ((obs.length : ℝ) - 1) : ℝ) := by
    unfold sampleCov
    rw [if_neg (by omega)]
    simp only [h1, h2]
    rw [hs]
    congr 2
    field_simp
    ring
  have hnn : (0:ℝ) ≤ (obs.map fun y => (y - obs.sum / (obs.length : ℝ)) ^ 2).sum := (sum_zero (g := fun y => (y - obs.sum / (obs.length : ℝ)) ^ 2) fun a _ => sq_nonneg _).1
  refine ⟨_, by unfold noiseDev; rw [hc]; rfl, by positivity, ?_⟩
  rw [div_pow, sq_sqrt (div_nonneg hnn (by linarith))]
  have : (obs.length : ℝ) - 1 ≠ 0 := by linarith
  generalize (obs.map fun y => (y - obs.sum / (obs.length : ℝ)) ^ 2).sum = W
  field_simp
  ring

/-! The hypotheses are met: a swinging arm, a draw, two observations, a piston. -/

example (t : ℝ) : ∃ τ0 τ1, planarI.f [2, 6 * t, 2 * t, 3 * t ^ 2, t ^ 2, t ^ 3] = some τ0 ∧ planarII.f [2, 6 * t, 2 * t, 3 * t ^ 2, t ^ 2, t ^ 3] = some τ1 := by
  obtain ⟨a, b, h1, h2, -⟩ := C120_arm_dynamics (fun t => t ^ 2) (fun t => t ^ 3) (fun t => 2 * t) (fun t => 3 * t ^ 2) (fun _ => 2) (fun t => 6 * t)
    (fun t => by simpa using hasDerivAt_pow 2 t) (fun t => by simpa using hasDerivAt_pow 3 t)
    (fun t => by simpa using (hasDerivAt_id t).const_mul (2:ℝ))
    (fun t => by refine ((hasDerivAt_pow 2 t).const_mul 3).congr_deriv ?_; norm_num; ring) t
  exact ⟨a, b, h1, h2⟩

example : ∃ x y, scale bukin.bounds [0.25, 0.5] = some x ∧ InBox bukin.bounds x ∧ x.length = 2 ∧ bukin.f x = some y :=
  C120_draws bukin (by simp) [0.25, 0.5] (by norm_num) (by simp) (fun _ => rfl)

example : ∃ σ, noiseDev [1, 3] = some σ ∧ 0 ≤ σ := by
  obtain ⟨σ, h, h', -⟩ := C120_noise [1, 3] (by simp)
  exact ⟨σ, h, h'⟩

example : ∃ y V K : ℝ, piston.f [45, 0.01, 0.005, 3000, 100000, 293, 350] = some y ∧ 0 < V ∧ 0 < K ∧ y = 2 * π * sqrt (45 / K) := by
  obtain ⟨y, V, K, h1, h2, h3, -, -, h4⟩ := C120_piston 45 0.01 0.005 3000 100000 293 350 (by norm_num) (by norm_num) (by norm_num) (by norm_num) (by norm_num) (by norm_num) (by norm_num)
  exact ⟨y, V, K, h1, h2, h3, h4⟩

end Limbo.Reg
