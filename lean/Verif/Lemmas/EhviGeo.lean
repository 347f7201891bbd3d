import Verif.Lemmas.HvVol
import Verif.Spec.Ehvi

/-! The improvement of a staircase by a point, strip by strip. -/

namespace Limbo.Ehvi

open MeasureTheory Set

/-- The area gained by `(x, y)`, strip by strip: right of `a`, above the staircase of `P` and above `b`. -/
noncomputable def stair (b : ℝ) : ℝ → List (ℝ × ℝ) → ℝ → ℝ → ℝ
  | a, [], x, y => max 0 (x - a) * max 0 (y - b)
  | a, p :: P, x, y => max 0 (min x p.1 - a) * max 0 (y - p.2) + stair b p.1 P x y

theorem stair_nonneg (b : ℝ) (P : List (ℝ × ℝ)) : ∀ a x y, 0 ≤ stair b a P x y := by
  induction P with
  | nil => exact fun a x y => mul_nonneg (le_max_left _ _) (le_max_left _ _)
  | cons p P ih => exact fun a x y => add_nonneg (mul_nonneg (le_max_left _ _) (le_max_left _ _)) (ih _ _ _)

/-- The points dominated by `(x, y)` but by no point of `P`, right of `a` and above `b`. -/
def gain (b a : ℝ) (P : List (ℝ × ℝ)) (x y : ℝ) : Set (Fin 2 → ℝ) :=
  {z | a < z 0 ∧ z 0 ≤ x ∧ b < z 1 ∧ z 1 ≤ y ∧ ∀ p ∈ P, ¬ (z 0 ≤ p.1 ∧ z 1 ≤ p.2)}

/-- A rectangle. -/
def rect (a x b y : ℝ) : Set (Fin 2 → ℝ) := {z | a < z 0 ∧ z 0 ≤ x ∧ b < z 1 ∧ z 1 ≤ y}

theorem rect_eq (a x b y : ℝ) : rect a x b y = Set.pi univ fun k => Ioc (![a, b] k) (![x, y] k) := by
  ext z
  simp only [rect, mem_setOf_eq, mem_pi, mem_univ, forall_const, mem_Ioc, Fin.forall_fin_two]
  simp [and_assoc]

theorem measurable_rect (a x b y : ℝ) : MeasurableSet (rect a x b y) := by
  rw [rect_eq]
  exact MeasurableSet.univ_pi fun k => measurableSet_Ioc

theorem volume_rect (a x b y : ℝ) : volume (rect a x b y) = ENNReal.ofReal (max 0 (x - a) * max 0 (y - b)) := by
  rw [rect_eq, Real.volume_pi_Ioc, Fin.prod_univ_two, ENNReal.ofReal_mul (le_max_left _ _)]
  simp only [Matrix.cons_val_zero, Matrix.cons_val_one]
  rw [ENNReal.ofReal_max, ENNReal.ofReal_max]
  simp

/-- The staircase runs to the right and down, right of `a` and above `b`. -/
structure Stairs (b a : ℝ) (P : List (ℝ × ℝ)) : Prop where
  pw : P.Pairwise fun p q => p.1 ≤ q.1 ∧ q.2 ≤ p.2
  ge : ∀ p ∈ P, a ≤ p.1 ∧ b ≤ p.2

theorem Stairs.tail {b a : ℝ} {p : ℝ × ℝ} {P : List (ℝ × ℝ)} (h : Stairs b a (p :: P)) : Stairs b p.1 P :=
  ⟨(List.pairwise_cons.mp h.pw).2, fun q hq => ⟨((List.pairwise_cons.mp h.pw).1 q hq).1, (h.ge q (List.mem_cons_of_mem _ hq)).2⟩⟩

theorem gain_cons {b a : ℝ} {p : ℝ × ℝ} {P : List (ℝ × ℝ)} (h : Stairs b a (p :: P)) (x y : ℝ) :
    gain b a (p :: P) x y = rect a (min x p.1) p.2 y ∪ gain b p.1 P x y := by
  have hp := List.pairwise_cons.mp h.pw
  have hg := h.ge p List.mem_cons_self
  ext z
  simp only [gain, rect, mem_setOf_eq, mem_union, List.mem_cons, forall_eq_or_imp, le_min_iff]
  constructor
  · rintro ⟨h1, h2, h3, h4, h5, h6⟩
    by_cases hz : z 0 ≤ p.1
    · exact .inl ⟨h1, ⟨h2, hz⟩, not_le.mp fun hh => h5 ⟨hz, hh⟩, h4⟩
    · exact .inr ⟨not_le.mp hz, h2, h3, h4, h6⟩
  · rintro (⟨h1, ⟨h2, h2'⟩, h3, h4⟩ | ⟨h1, h2, h3, h4, h5⟩)
    · refine ⟨h1, h2, lt_of_le_of_lt hg.2 h3, h4, fun hh => absurd hh.2 (not_le.mpr h3), fun q hq hh => ?_⟩
      exact absurd (hh.2.trans (hp.1 q hq).2) (not_le.mpr h3)
    · exact ⟨lt_of_le_of_lt hg.1 h1, h2, h3, h4, fun hh => absurd hh.1 (not_le.mpr h1), h5⟩

theorem measurable_gain {b : ℝ} (P : List (ℝ × ℝ)) : ∀ a, Stairs b a P → ∀ x y, MeasurableSet (gain b a P x y) := by
  induction P with
  | nil =>
    intro a _ x y
    have : gain b a [] x y = rect a x b y := by
      ext z
      simp [gain, rect]
    rw [this]
    exact measurable_rect _ _ _ _
  | cons p P ih =>
    intro a h x y
    rw [gain_cons h]
    exact (measurable_rect _ _ _ _).union (ih _ h.tail x y)

theorem volume_gain {b : ℝ} (P : List (ℝ × ℝ)) : ∀ a, Stairs b a P → ∀ x y, volume (gain b a P x y) = ENNReal.ofReal (stair b a P x y) := by
  induction P with
  | nil =>
    intro a _ x y
    have : gain b a [] x y = rect a x b y := by
      ext z
      simp [gain, rect]
    rw [this, volume_rect]
    rfl
  | cons p P ih =>
    intro a h x y
    rw [gain_cons h, measure_union _ (measurable_gain P _ h.tail x y), volume_rect, ih _ h.tail, stair,
      ENNReal.ofReal_add (mul_nonneg (le_max_left _ _) (le_max_left _ _)) (stair_nonneg _ _ _ _ _)]
    rw [Set.disjoint_left]
    rintro z ⟨-, h1, -⟩ ⟨h2, -⟩
    exact absurd ((le_min_iff.mp h1).2) (not_le.mpr h2)

/-- The union of half-open boxes above `r`. -/
def boxesR {d : Nat} (r : Fin d → ℝ) (S : List (Fin d → ℝ)) : Set (Fin d → ℝ) := ⋃ p ∈ S, Set.pi univ fun k => Ioc (r k) (p k)

theorem volume_boxesR {d : Nat} (r : Fin d → ℝ) (S : List (Fin d → ℝ)) : (volume (boxesR r S)).toReal = dominatedVolume r S := by
  rw [dominatedVolume, boxesR]
  congr 1
  refine measure_congr ?_
  induction S with
  | nil => simp
  | cons p S ih =>
    simp only [List.mem_cons, iUnion_iUnion_eq_or_left]
    exact Filter.EventuallyEq.union Measure.univ_pi_Ioc_ae_eq_Icc ih

theorem boxesR_finite {d : Nat} (r : Fin d → ℝ) (S : List (Fin d → ℝ)) : volume (boxesR r S) ≠ ⊤ := by
  refine ((measure_biUnion_lt_top (List.finite_toSet S) fun p _ => ?_)).ne
  rw [Real.volume_pi_Ioc]
  exact ENNReal.prod_lt_top fun i _ => ENNReal.ofReal_lt_top

theorem measurable_boxesR {d : Nat} (r : Fin d → ℝ) (S : List (Fin d → ℝ)) : MeasurableSet (boxesR r S) :=
  (List.finite_toSet S).measurableSet_biUnion fun p _ => MeasurableSet.univ_pi fun k => measurableSet_Ioc

/-- The improvement is the area gained. -/
theorem hvImprovement_eq {r : ℝ × ℝ} {P : List (ℝ × ℝ)} (h : Stairs r.2 r.1 P) (z : ℝ × ℝ) : hvImprovement r P z = stair r.2 r.1 P z.1 z.2 := by
  have e1 : boxesR (planePt r) ((z :: P).map planePt) = boxesR (planePt r) (P.map planePt) ∪ gain r.2 r.1 P z.1 z.2 := by
    ext w
    simp only [boxesR, gain, planePt, List.map_cons, List.mem_cons, List.mem_map, iUnion_iUnion_eq_or_left, mem_union, mem_iUnion, exists_prop,
      mem_pi, mem_univ, forall_const, mem_Ioc, Fin.forall_fin_two, Matrix.cons_val_zero, Matrix.cons_val_one, mem_setOf_eq]
    constructor
    · rintro (⟨⟨h1, h2⟩, h3, h4⟩ | h1)
      · by_cases hh : ∃ p ∈ P, w 0 ≤ p.1 ∧ w 1 ≤ p.2
        · obtain ⟨p, hp, h5, h6⟩ := hh
          exact .inl ⟨_, ⟨p, hp, rfl⟩, ⟨h1, by simpa using h5⟩, h3, by simpa using h6⟩
        · exact .inr ⟨h1, h2, h3, h4, fun p hp hq => hh ⟨p, hp, hq⟩⟩
      · exact .inl h1
    · rintro (h1 | ⟨h1, h2, h3, h4, -⟩)
      · exact .inr h1
      · exact .inl ⟨⟨h1, h2⟩, h3, h4⟩
  have hd : Disjoint (boxesR (planePt r) (P.map planePt)) (gain r.2 r.1 P z.1 z.2) := by
    rw [Set.disjoint_left]
    rintro w h1 ⟨-, -, -, -, h2⟩
    simp only [boxesR, mem_iUnion, List.mem_map, exists_prop] at h1
    obtain ⟨_, ⟨p, hp, rfl⟩, h3⟩ := h1
    exact h2 p hp ⟨by simpa [planePt] using (h3 0 trivial).2, by simpa [planePt] using (h3 1 trivial).2⟩
  rw [hvImprovement, ← volume_boxesR, ← volume_boxesR, e1, measure_union hd (measurable_gain P _ h _ _),
    ENNReal.toReal_add (boxesR_finite _ _) (by rw [volume_gain P _ h]; exact ENNReal.ofReal_ne_top), volume_gain P _ h,
    ENNReal.toReal_ofReal (stair_nonneg _ _ _ _ _)]
  ring

end Limbo.Ehvi
