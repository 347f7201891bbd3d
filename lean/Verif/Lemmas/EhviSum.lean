import Mathlib.Algebra.BigOperators.Intervals
import Mathlib.Algebra.BigOperators.Ring.Finset
import Mathlib.Tactic.Ring
import Mathlib.Tactic.Linarith
import Verif.Lemmas.EhviGeo

/-! The area gained by a point as a sum over the cells of the grid. -/

namespace Limbo.Ehvi

open Finset

/-- Indicator of `x > b`; `0` for `b = ⊤`. -/
noncomputable def ind : WithTop ℝ → ℝ → ℝ
  | ⊤, _ => 0
  | (b : ℝ), x => open Classical in if b < x then 1 else 0

@[simp] theorem ind_top (x : ℝ) : ind ⊤ x = 0 := rfl
theorem ind_coe (b x : ℝ) : ind (b : WithTop ℝ) x = open Classical in if b < x then 1 else 0 := rfl
theorem ind_lt {b x : ℝ} (h : b < x) : ind (b : WithTop ℝ) x = 1 := by rw [ind_coe, if_pos h]
theorem ind_ge {b x : ℝ} (h : x ≤ b) : ind (b : WithTop ℝ) x = 0 := by rw [ind_coe, if_neg (not_lt.mpr h)]

/-- Upper boundary of cell `j` of the first objective. -/
noncomputable def xu (X : ℕ → ℝ) (k j : ℕ) : WithTop ℝ := if j = k then ⊤ else (X (j + 1) : ℝ)

/-- Upper boundary of cell `a` of the second objective. -/
noncomputable def yu (Y : ℕ → ℝ) (a : ℕ) : WithTop ℝ := if a = 0 then ⊤ else (Y (a - 1) : ℝ)

/-- Width of strip `m` left of `x`. -/
noncomputable def wid (X : ℕ → ℝ) (k m : ℕ) (x : ℝ) : ℝ := if m = k then max 0 (x - X k) else max 0 (min x (X (m + 1)) - X m)

/-- The area gained. -/
noncomputable def area (X Y : ℕ → ℝ) (k : ℕ) (x y : ℝ) : ℝ := ∑ m ∈ range (k + 1), wid X k m x * max 0 (y - Y m)

/-- The correction term of row `a` at column `j`. -/
noncomputable def smin (X Y : ℕ → ℝ) (a j : ℕ) : ℝ := ∑ m ∈ Ico a j, (X (m + 1) - X a) * (Y m - Y (m + 1))

/-- Sum of the cells. -/
theorem sum_x {X : ℕ → ℝ} (k : ℕ) (x : ℝ) : ∑ j ∈ range (k + 1), (ind (X j : ℝ) x - ind (xu X k j) x) = ind (X 0 : ℝ) x := by
  rw [sum_range_succ]
  have : ∑ j ∈ range k, (ind (X j : ℝ) x - ind (xu X k j) x) = ∑ j ∈ range k, (ind (X j : ℝ) x - ind (X (j + 1) : ℝ) x) :=
    sum_congr rfl fun j hj => by rw [xu, if_neg (mem_range.mp hj).ne]
  rw [this, sum_range_sub' fun j => ind (X j : ℝ) x, xu, if_pos rfl, ind_top]
  ring

theorem sum_y {Y : ℕ → ℝ} (k : ℕ) (y : ℝ) : ∑ a ∈ range (k + 1), (ind (Y a : ℝ) y - ind (yu Y a) y) = ind (Y k : ℝ) y := by
  rw [sum_range_succ']
  have : ∑ a ∈ range k, (ind (Y (a + 1) : ℝ) y - ind (yu Y (a + 1)) y) = ∑ a ∈ range k, (ind (Y (a + 1) : ℝ) y - ind (Y a : ℝ) y) :=
    sum_congr rfl fun a _ => by rw [yu, if_neg (Nat.succ_ne_zero a)]; rfl
  rw [this, sum_range_sub fun a => ind (Y a : ℝ) y, yu, if_pos rfl, ind_top]
  ring

/-- Boundaries of a staircase of `k` points. -/
structure Grid (X Y : ℕ → ℝ) (k : ℕ) : Prop where
  x : ∀ m < k, X m ≤ X (m + 1)
  y : ∀ m < k, Y (m + 1) ≤ Y m

variable {X Y : ℕ → ℝ} {k : ℕ}

theorem Grid.xmono (h : Grid X Y k) {m n : ℕ} (hmn : m ≤ n) (hn : n ≤ k) : X m ≤ X n := by
  induction n with
  | zero => rw [Nat.le_zero.mp hmn]
  | succ n ih =>
    rcases Nat.lt_or_ge n m with hlt | hge
    · rw [show m = n + 1 by omega]
    · exact (ih hge (by omega)).trans (h.x n (by omega))

theorem Grid.yanti (h : Grid X Y k) {m n : ℕ} (hmn : m ≤ n) (hn : n ≤ k) : Y n ≤ Y m := by
  induction n with
  | zero => rw [Nat.le_zero.mp hmn]
  | succ n ih =>
    rcases Nat.lt_or_ge n m with hlt | hge
    · rw [show m = n + 1 by omega]
    · exact (h.y n (by omega)).trans (ih hge (by omega))

/-- The cell indicator is 1 inside and 0 outside. -/
theorem cellx (h : Grid X Y k) {j : ℕ} (hj : j ≤ k) (x : ℝ) :
    (ind (X j : ℝ) x - ind (xu X k j) x = 0) ∨ (ind (X j : ℝ) x - ind (xu X k j) x = 1 ∧ X j < x ∧ (j < k → x ≤ X (j + 1))) := by
  by_cases hjk : j = k
  · subst hjk
    rw [xu, if_pos rfl, ind_top, sub_zero]
    by_cases hx : X j < x
    · exact .inr ⟨ind_lt hx, hx, fun h => absurd h (lt_irrefl _)⟩
    · exact .inl (ind_ge (not_lt.mp hx))
  · rw [xu, if_neg hjk]
    have hm := h.x j (by omega)
    by_cases hx : X j < x
    · by_cases hx2 : X (j + 1) < x
      · left
        rw [ind_lt hx, ind_lt hx2, sub_self]
      · right
        rw [ind_lt hx, ind_ge (not_lt.mp hx2), sub_zero]
        exact ⟨rfl, hx, fun _ => not_lt.mp hx2⟩
    · left
      rw [ind_ge (not_lt.mp hx), ind_ge ((not_lt.mp hx).trans hm), sub_self]

theorem celly (h : Grid X Y k) {a : ℕ} (ha : a ≤ k) (y : ℝ) :
    (ind (Y a : ℝ) y - ind (yu Y a) y = 0) ∨ (ind (Y a : ℝ) y - ind (yu Y a) y = 1 ∧ Y a < y ∧ (∀ b, b + 1 = a → y ≤ Y b)) := by
  rcases a with _ | a
  · rw [yu, if_pos rfl, ind_top, sub_zero]
    by_cases hy : Y 0 < y
    · exact .inr ⟨ind_lt hy, hy, fun b hb => by omega⟩
    · exact .inl (ind_ge (not_lt.mp hy))
  · rw [yu, if_neg (Nat.succ_ne_zero a), Nat.add_sub_cancel]
    have hm := h.y a (by omega)
    by_cases hy : Y (a + 1) < y
    · by_cases hy2 : Y a < y
      · left
        rw [ind_lt hy, ind_lt hy2, sub_self]
      · right
        rw [ind_lt hy, ind_ge (not_lt.mp hy2), sub_zero]
        refine ⟨rfl, hy, fun b hb => ?_⟩
        obtain rfl : b = a := by omega
        exact not_lt.mp hy2
    · left
      rw [ind_ge (not_lt.mp hy), ind_ge ((not_lt.mp hy).trans hm), sub_self]

/-- Abel summation. -/
theorem abel (y : ℝ) {a j : ℕ} (haj : a ≤ j) :
    ∑ m ∈ Ico a j, (X (m + 1) - X m) * (y - Y m) = (X j - X a) * (y - Y j) - smin X Y a j := by
  induction j, haj using Nat.le_induction with
  | base => simp [smin]
  | succ j hj ih =>
    rw [sum_Ico_succ_top hj, ih, smin, smin, sum_Ico_succ_top hj]
    ring

/-- Inside a cell the area gained is a bilinear function. -/
theorem area_cell (h : Grid X Y k) {a j : ℕ} (haj : a ≤ j) (hj : j ≤ k) {x y : ℝ} (h1 : X j < x) (h2 : j < k → x ≤ X (j + 1)) (h3 : Y a < y)
    (h4 : ∀ b, b + 1 = a → y ≤ Y b) : area X Y k x y = (x - X a) * (y - Y j) - smin X Y a j := by
  have key : ∀ m ∈ range (k + 1), wid X k m x * max 0 (y - Y m)
      = (if a ≤ m ∧ m < j then (X (m + 1) - X m) * (y - Y m) else 0) + if m = j then (x - X j) * (y - Y j) else 0 := by
    intro m hm
    have hmk : m ≤ k := by simpa [Nat.lt_succ_iff] using hm
    rcases Nat.lt_trichotomy m j with hlt | rfl | hgt
    · rw [if_neg hlt.ne, add_zero, wid, if_neg (by omega), min_eq_right ((h.xmono (show m + 1 ≤ j by omega) hj).trans h1.le),
        max_eq_right (sub_nonneg.mpr (h.x m (by omega)))]
      by_cases ham : a ≤ m
      · rw [if_pos ⟨ham, hlt⟩, max_eq_right (sub_nonneg.mpr ((h.yanti ham hmk).trans h3.le))]
      · rw [if_neg (fun hh => ham hh.1), max_eq_left, mul_zero]
        exact sub_nonpos.mpr ((h4 (a - 1) (by omega)).trans (h.yanti (show m ≤ a - 1 by omega) (by omega)))
    · rw [if_neg (fun hh => lt_irrefl _ hh.2), if_pos rfl, zero_add, max_eq_right (sub_nonneg.mpr ((h.yanti haj hmk).trans h3.le)), wid]
      by_cases hm2 : m = k
      · subst hm2
        rw [if_pos rfl, max_eq_right (sub_nonneg.mpr h1.le)]
      · rw [if_neg hm2, min_eq_left (h2 (by omega)), max_eq_right (sub_nonneg.mpr h1.le)]
    · rw [if_neg (fun hh => by omega), if_neg (by omega), add_zero, wid]
      have hx : x ≤ X m := (h2 (by omega)).trans (h.xmono hgt hmk)
      by_cases hm2 : m = k
      · subst hm2
        rw [if_pos rfl, max_eq_left (sub_nonpos.mpr hx), zero_mul]
      · rw [if_neg hm2, max_eq_left (sub_nonpos.mpr ((min_le_left _ _).trans hx)), zero_mul]
  rw [area, sum_congr rfl key, sum_add_distrib, sum_ite_eq' (range (k + 1)) j, if_pos (by simp; omega), ← sum_filter]
  have : (range (k + 1)).filter (fun m => a ≤ m ∧ m < j) = Ico a j := by
    ext m
    simp only [mem_filter, mem_range, mem_Ico]
    omega
  rw [this, abel y haj]
  ring

/-- Cells below the staircase gain nothing. -/
theorem area_zero (h : Grid X Y k) {a j : ℕ} (haj : j < a) (ha : a ≤ k) {x y : ℝ} (h2 : j < k → x ≤ X (j + 1)) (h4 : ∀ b, b + 1 = a → y ≤ Y b) :
    area X Y k x y = 0 := by
  refine sum_eq_zero fun m hm => ?_
  have hmk : m ≤ k := by simpa [Nat.lt_succ_iff] using hm
  by_cases hmj : m ≤ j
  · rw [max_eq_left, mul_zero]
    exact sub_nonpos.mpr ((h4 (a - 1) (by omega)).trans (h.yanti (show m ≤ a - 1 by omega) (by omega)))
  · have hx : x ≤ X m := (h2 (by omega)).trans (h.xmono (show j + 1 ≤ m by omega) hmk)
    rw [wid]
    by_cases hm2 : m = k
    · subst hm2
      rw [if_pos rfl, max_eq_left (sub_nonpos.mpr hx), zero_mul]
    · rw [if_neg hm2, max_eq_left (sub_nonpos.mpr ((min_le_left _ _).trans hx)), zero_mul]

/-- The area gained as a sum over the cells. -/
theorem area_cells (h : Grid X Y k) (x y : ℝ) :
    area X Y k x y = ∑ a ∈ range (k + 1), ∑ j ∈ Ico a (k + 1),
      (ind (X j : ℝ) x - ind (xu X k j) x) * ((ind (Y a : ℝ) y - ind (yu Y a) y) * ((x - X a) * (y - Y j) - smin X Y a j)) := by
  have h0 : area X Y k x y = ind (X 0 : ℝ) x * ind (Y k : ℝ) y * area X Y k x y := by
    by_cases hx : X 0 < x
    · by_cases hy : Y k < y
      · rw [ind_lt hx, ind_lt hy, one_mul, one_mul]
      · rw [ind_ge (not_lt.mp hy), mul_zero, zero_mul]
        refine sum_eq_zero fun m hm => ?_
        rw [max_eq_left, mul_zero]
        exact sub_nonpos.mpr ((not_lt.mp hy).trans (h.yanti (by simpa [Nat.lt_succ_iff] using hm) (le_refl _)))
    · rw [ind_ge (not_lt.mp hx), zero_mul, zero_mul]
      refine sum_eq_zero fun m hm => ?_
      have hmk : m ≤ k := by simpa [Nat.lt_succ_iff] using hm
      have hx' : x ≤ X m := (not_lt.mp hx).trans (h.xmono (Nat.zero_le _) hmk)
      rw [wid]
      by_cases hm2 : m = k
      · subst hm2
        rw [if_pos rfl, max_eq_left (sub_nonpos.mpr hx'), zero_mul]
      · rw [if_neg hm2, max_eq_left (sub_nonpos.mpr ((min_le_left _ _).trans hx')), zero_mul]
  rw [h0, ← sum_x k x, ← sum_y k y, mul_comm (∑ j ∈ range (k + 1), _), sum_mul_sum, sum_mul]
  refine sum_congr rfl fun a ha => ?_
  have hak : a ≤ k := by simpa [Nat.lt_succ_iff] using ha
  rw [sum_mul, ← sum_subset (s₁ := Ico a (k + 1))]
  · refine sum_congr rfl fun j hj => ?_
    obtain ⟨hj1, hj2⟩ := mem_Ico.mp hj
    rcases cellx h (show j ≤ k by omega) x with hx | ⟨hx, hx1, hx2⟩
    · rw [hx, mul_zero, zero_mul, zero_mul]
    · rcases celly h hak y with hy | ⟨hy, hy1, hy2⟩
      · rw [hy, zero_mul, zero_mul, zero_mul, mul_zero]
      · rw [area_cell h hj1 (by omega) hx1 hx2 hy1 hy2]
        ring
  · exact fun j hj => by
      have := (mem_Ico.mp hj).2
      exact mem_range.mpr this
  · intro j hj hn
    have hja : j < a := by
      by_contra hc
      exact hn (mem_Ico.mpr ⟨by omega, mem_range.mp hj⟩)
    rcases cellx h (show j ≤ k by omega) x with hx | ⟨hx, hx1, hx2⟩
    · rw [hx, mul_zero, zero_mul]
    · rcases celly h hak y with hy | ⟨hy, hy1, hy2⟩
      · rw [hy, zero_mul, zero_mul]
      · rw [area_zero h hja hak hx2 hy2, mul_zero]

/-- Boundaries of a list of points: left boundaries `a, x0, x1, ..`. -/
def Xl (a : ℝ) (P : List (ℝ × ℝ)) (m : ℕ) : ℝ := (a :: P.map Prod.fst).getD m 0

/-- Heights `y0, y1, .., b`. -/
def Yl (b : ℝ) (P : List (ℝ × ℝ)) (m : ℕ) : ℝ := (P.map Prod.snd ++ [b]).getD m 0

theorem stair_eq (b : ℝ) (P : List (ℝ × ℝ)) : ∀ a x y, stair b a P x y = area (Xl a P) (Yl b P) P.length x y := by
  induction P with
  | nil =>
    intro a x y
    simp [stair, area, wid, Xl, Yl]
  | cons p P ih =>
    intro a x y
    rw [stair, ih, area, area, List.length_cons, sum_range_succ' _ (P.length + 1), add_comm]
    congr 1
    · refine sum_congr rfl fun m hm => ?_
      simp only [wid, Nat.add_right_cancel_iff]
      rfl

theorem grid_of_stairs {b a : ℝ} {P : List (ℝ × ℝ)} (h : Stairs b a P) : Grid (Xl a P) (Yl b P) P.length := by
  induction P generalizing a with
  | nil => exact ⟨fun m hm => absurd hm (by simp), fun m hm => absurd hm (by simp)⟩
  | cons p P ih =>
    have hp := List.pairwise_cons.mp h.pw
    have hg := h.ge p List.mem_cons_self
    have ih' := ih h.tail
    constructor
    · rintro (_ | m) hm
      · exact hg.1
      · exact ih'.x m (by simpa using hm)
    · rintro (_ | m) hm
      · rcases P with _ | ⟨q, P⟩
        · exact hg.2
        · exact (hp.1 q List.mem_cons_self).2
      · exact ih'.y m (by simpa using hm)

end Limbo.Ehvi
