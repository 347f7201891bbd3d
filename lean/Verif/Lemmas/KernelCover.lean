import Verif.Lemmas.Kernel
import Verif.Spec.RegretCover
import Mathlib.Analysis.SpecialFunctions.Exp
import Mathlib.Algebra.BigOperators.Fin

/-! The unit box in cells of small kernel diameter. -/

namespace Limbo

open Finset

/-- index of the slice of the axis -/
noncomputable def slice (m : Nat) (hm : 0 < m) (x : ℝ) : Fin m := ⟨min (m - 1) ⌊(m : ℝ) * x⌋₊, lt_of_le_of_lt (min_le_left _ _) (by omega)⟩

theorem slice_near {m : Nat} {hm : 0 < m} {x y : ℝ} (hx : 0 ≤ x ∧ x ≤ 1) (hy : 0 ≤ y ∧ y ≤ 1) (h : slice m hm x = slice m hm y) :
    (x - y) * (x - y) ≤ 1 / (m : ℝ) ^ 2 := by
  have hm0 : (0 : ℝ) < m := by exact_mod_cast hm
  have bnd : ∀ z : ℝ, 0 ≤ z ∧ z ≤ 1 → ((slice m hm z : Nat) : ℝ) ≤ m * z ∧ m * z ≤ ((slice m hm z : Nat) : ℝ) + 1 := by
    intro z hz
    have hz0 : 0 ≤ (m : ℝ) * z := mul_nonneg hm0.le hz.1
    have h1 := Nat.floor_le hz0
    have h2 := (Nat.lt_floor_add_one ((m : ℝ) * z)).le
    simp only [slice]
    rcases le_total (m - 1) ⌊(m : ℝ) * z⌋₊ with h3 | h3
    · rw [min_eq_left h3]
      have h4 : ((m - 1 : Nat) : ℝ) ≤ (⌊(m : ℝ) * z⌋₊ : ℝ) := by exact_mod_cast h3
      refine ⟨h4.trans h1, ?_⟩
      rw [Nat.cast_sub hm, Nat.cast_one, sub_add_cancel]
      nlinarith [hz.2]
    · rw [min_eq_right h3]; exact ⟨h1, h2⟩
  obtain ⟨a1, a2⟩ := bnd x hx
  obtain ⟨b1, b2⟩ := bnd y hy
  rw [h] at a1 a2
  rw [le_div_iff₀ (by positivity)]
  have : (x - y) * (x - y) * (m : ℝ) ^ 2 = (m * x - m * y) ^ 2 := by ring
  rw [this, sq_le_one_iff_abs_le_one, abs_le]
  constructor <;> linarith

/-- `m` slices per axis -/
theorem unitBox_cells {m d : Nat} (hm : 0 < m) : ∃ cell : List ℝ → Fin (m ^ d), ∀ p ∈ UnitBox d, ∀ q ∈ UnitBox d, cell p = cell q → sqDist p q ≤ d / (m : ℝ) ^ 2 := by
  refine ⟨fun p => finFunctionFinEquiv fun i : Fin d => slice m hm (at' p i), fun p hp q hq h => ?_⟩
  have h1 := finFunctionFinEquiv.injective h
  have hat : ∀ v ∈ UnitBox d, ∀ i < d, 0 ≤ at' v i ∧ at' v i ≤ 1 := by
    intro v hv i hi
    refine hv.2 _ ?_
    rw [at', List.getD_eq_getElem _ _ (by rw [hv.1]; exact hi)]
    exact List.getElem_mem _
  unfold sqDist
  rw [hp.1]
  calc ∑ i ∈ range d, (at' p i - at' q i) * (at' p i - at' q i) ≤ ∑ _i ∈ range d, 1 / (m : ℝ) ^ 2 := by
        refine sum_le_sum fun i hi => ?_
        have hi := mem_range.1 hi
        exact slice_near (hat p hp i hi) (hat q hq i hi) (congrFun h1 ⟨i, hi⟩)
    _ = d / (m : ℝ) ^ 2 := by rw [sum_const, card_range, nsmul_eq_mul]; ring

theorem cells_of_lipschitz {k : List ℝ → List ℝ → ℝ} {d m : Nat} (hm : 0 < m) {L : ℝ} (hL : 0 ≤ L)
    (h : ∀ p q : List ℝ, p.length = d → q.length = d → k p p - 2 * k p q + k q q ≤ L * sqDist p q) : CellsOf k (UnitBox d) (m ^ d) (L * (d / (m : ℝ) ^ 2)) := by
  obtain ⟨cell, hc⟩ := unitBox_cells (d := d) hm
  exact ⟨cell, fun p hp q hq e => (h p q hp.1 hq.1).trans (mul_le_mul_of_nonneg_left (hc p hp q hq e) hL)⟩

theorem exp_lip {s l : ℝ} (hs : 0 ≤ s) (hl : 0 < l) (KP : KernelParams) (d : Nat) (p q : List ℝ) :
    (BaseK.mk' KP d : BaseK (expKernel s l)).op p p - 2 * (BaseK.mk' KP d : BaseK (expKernel s l)).op p q + (BaseK.mk' KP d : BaseK (expKernel s l)).op q q ≤
      s / l ^ 2 * sqDist p q := by
  simp only [BaseK.op, BaseK.mk', expKernel, IsoSt.mk', sqDist_self, zero_div, mul_zero, Real.exp_zero, mul_one, add_zero]
  have h := Real.add_one_le_exp (-0.5 * (sqDist p q / (l * l)))
  have e : s / l ^ 2 * sqDist p q = s * (sqDist p q / (l * l)) := by rw [pow_two]; ring
  rw [e]
  nlinarith

theorem one_sub_sq_le (t : ℝ) (ht : 0 ≤ t) : 1 - t ^ 2 ≤ (1 + t) * Real.exp (-t) := by
  have h := Real.add_one_le_exp (-t)
  nlinarith

theorem m32_lip {s l : ℝ} (hs : 0 ≤ s) (hl : 0 < l) (KP : KernelParams) (d : Nat) (p q : List ℝ) :
    (BaseK.mk' KP d : BaseK (matern32 s l)).op p p - 2 * (BaseK.mk' KP d : BaseK (matern32 s l)).op p q + (BaseK.mk' KP d : BaseK (matern32 s l)).op q q ≤
      6 * s / l ^ 2 * sqDist p q := by
  simp only [BaseK.op, BaseK.mk', matern32, IsoSt.mk', dist2_self, zero_div, mul_zero, neg_zero, Real.exp_zero, mul_one, add_zero]
  have h := one_sub_sq_le (√3 * dist2 p q / l) (by have := Real.sqrt_nonneg (sqDist p q); unfold dist2; positivity)
  have e : (√3 * dist2 p q / l) ^ 2 = 3 / l ^ 2 * sqDist p q := by
    rw [div_pow, mul_pow, dist2, Real.sq_sqrt (by norm_num), Real.sq_sqrt (sqDist_nonneg _ _)]; ring
  rw [e] at h
  have h2 := mul_le_mul_of_nonneg_left h hs
  have e2 : 6 * s / l ^ 2 * sqDist p q = 2 * (s * (3 / l ^ 2 * sqDist p q)) := by ring
  rw [e2]
  nlinarith

theorem m52_lip {s l : ℝ} (hs : 0 ≤ s) (hl : 0 < l) (KP : KernelParams) (d : Nat) (p q : List ℝ) :
    (BaseK.mk' KP d : BaseK (matern52 s l)).op p p - 2 * (BaseK.mk' KP d : BaseK (matern52 s l)).op p q + (BaseK.mk' KP d : BaseK (matern52 s l)).op q q ≤
      10 * s / l ^ 2 * sqDist p q := by
  simp only [BaseK.op, BaseK.mk', matern52, IsoSt.mk', dist2_self, zero_div, mul_zero, neg_zero, Real.exp_zero, mul_one, add_zero]
  have h := one_sub_sq_le (√5 * dist2 p q / l) (by have := Real.sqrt_nonneg (sqDist p q); unfold dist2; positivity)
  have e : (√5 * dist2 p q / l) ^ 2 = 5 / l ^ 2 * sqDist p q := by
    rw [div_pow, mul_pow, dist2, Real.sq_sqrt (by norm_num), Real.sq_sqrt (sqDist_nonneg _ _)]; ring
  rw [e] at h
  have h3 : 0 ≤ 5 * (dist2 p q * dist2 p q) / (3 * (l * l)) * Real.exp (-(√5 * dist2 p q / l)) := by
    have := mul_self_nonneg (dist2 p q); have := mul_self_nonneg l; positivity
  have h2 := mul_le_mul_of_nonneg_left h hs
  have h4 := mul_nonneg hs h3
  have e2 : 10 * s / l ^ 2 * sqDist p q = 2 * (s * (5 / l ^ 2 * sqDist p q)) := by ring
  rw [e2]
  nlinarith

end Limbo
