import Mathlib.MeasureTheory.Measure.Lebesgue.Basic
import Mathlib.MeasureTheory.Constructions.Pi
import Verif.Spec.Hv

/-! Volumes of unions of boxes, cut into slabs along the last coordinate. -/

namespace Limbo.Hv

open MeasureTheory Set

/-- The union of half-open boxes. -/
def boxes {d : Nat} (S : List (Fin d → ℝ)) : Set (Fin d → ℝ) := {z | ∃ p ∈ S, ∀ k, 0 < z k ∧ z k ≤ p k}

theorem boxes_eq {d : Nat} (S : List (Fin d → ℝ)) : boxes S = ⋃ p ∈ S, Set.pi univ fun k => Ioc 0 (p k) := by
  ext z
  simp [boxes, Set.mem_pi]

theorem measurable_boxes {d : Nat} (S : List (Fin d → ℝ)) : MeasurableSet (boxes S) := by
  rw [boxes_eq]
  exact (List.finite_toSet S).measurableSet_biUnion fun p _ => MeasurableSet.univ_pi fun k => measurableSet_Ioc

theorem volume_boxes {d : Nat} (S : List (Fin d → ℝ)) : (volume (boxes S)).toReal = dominatedVolume 0 S := by
  rw [dominatedVolume, boxes_eq]
  congr 1
  refine measure_congr ?_
  induction S with
  | nil => simp
  | cons p S ih =>
    simp only [List.mem_cons, iUnion_iUnion_eq_or_left]
    refine Filter.EventuallyEq.union ?_ ih
    exact Measure.univ_pi_Ioc_ae_eq_Icc

theorem boxes_finite {d : Nat} (S : List (Fin d → ℝ)) : volume (boxes S) ≠ ⊤ := by
  rw [boxes_eq]
  refine ((measure_biUnion_lt_top (List.finite_toSet S) fun p _ => ?_)).ne
  rw [Real.volume_pi_Ioc]
  exact ENNReal.prod_lt_top fun i _ => ENNReal.ofReal_lt_top

/-- The part of the region above height `δ` of the last coordinate. -/
def above {d : Nat} (S : List (Fin (d + 1) → ℝ)) (δ : ℝ) : Set (Fin (d + 1) → ℝ) := boxes S ∩ {z | δ < z (Fin.last d)}

theorem measurable_above {d : Nat} (S : List (Fin (d + 1) → ℝ)) (δ : ℝ) : MeasurableSet (above S δ) :=
  (measurable_boxes S).inter (measurableSet_lt measurable_const (measurable_pi_apply _))

theorem above_zero {d : Nat} (S : List (Fin (d + 1) → ℝ)) : above S 0 = boxes S := by
  ext z
  exact ⟨fun h => h.1, fun h => ⟨h, (h.choose_spec.2 _).1⟩⟩

theorem above_congr {d : Nat} {S S' : List (Fin (d + 1) → ℝ)} {δ : ℝ} (h1 : ∀ p ∈ S', p ∈ S) (h2 : ∀ p ∈ S, δ < p (Fin.last d) → p ∈ S') :
    above S δ = above S' δ := by
  ext z
  constructor
  · rintro ⟨⟨p, hp, hz⟩, hd⟩
    exact ⟨⟨p, h2 p hp (lt_of_lt_of_le hd (hz _).2), hz⟩, hd⟩
  · rintro ⟨⟨p, hp, hz⟩, hd⟩
    exact ⟨⟨p, h1 p hp, hz⟩, hd⟩

/-- The slab between heights `δ` and `t` below all points. -/
theorem volume_above {d : Nat} {S : List (Fin (d + 1) → ℝ)} {δ t : ℝ} (h0 : 0 ≤ δ) (hδ : δ ≤ t) (ht : ∀ p ∈ S, t ≤ p (Fin.last d)) :
    volume (above S δ) = volume (boxes (S.map fun p => fun k : Fin d => p k.castSucc)) * ENNReal.ofReal (t - δ) + volume (above S t) := by
  have hm := volume_preserving_piFinSuccAbove (fun _ : Fin (d + 1) => ℝ) (Fin.last d)
  have e : above S δ = (MeasurableEquiv.piFinSuccAbove (fun _ : Fin (d + 1) => ℝ) (Fin.last d)) ⁻¹'
      (Ioc δ t ×ˢ boxes (S.map fun p => fun k : Fin d => p k.castSucc)) ∪ above S t := by
    ext z
    simp only [mem_union, mem_preimage, mem_prod, MeasurableEquiv.piFinSuccAbove_apply, Fin.insertNthEquiv_symm_apply, mem_Ioc]
    constructor
    · rintro ⟨⟨p, hp, hz⟩, hd⟩
      by_cases hzt : z (Fin.last d) ≤ t
      · exact .inl ⟨⟨hd, hzt⟩, _, List.mem_map_of_mem hp, fun k => by simpa [Fin.removeNth] using hz k.castSucc⟩
      · exact .inr ⟨⟨p, hp, hz⟩, not_le.mp hzt⟩
    · rintro (⟨⟨h1, h2⟩, q, hq, hz⟩ | ⟨h1, h2⟩)
      · obtain ⟨p, hp, rfl⟩ := List.mem_map.mp hq
        refine ⟨⟨p, hp, fun k => ?_⟩, h1⟩
        refine Fin.lastCases ?_ (fun k => ?_) k
        · exact ⟨lt_of_le_of_lt h0 h1, h2.trans (ht p hp)⟩
        · simpa [Fin.removeNth] using hz k
      · exact ⟨h1, lt_of_le_of_lt hδ h2⟩
  rw [e, measure_union _ (measurable_above S t)]
  · rw [hm.measure_preimage_emb (MeasurableEquiv.measurableEmbedding _), Measure.volume_eq_prod, Measure.prod_prod, Real.volume_Ioc, mul_comm]
  · rw [Set.disjoint_left]
    rintro z ⟨⟨-, h1⟩, -⟩ ⟨-, h2⟩
    exact absurd h1 (not_le.mpr h2)

theorem boxes_nil {d : Nat} : volume (boxes ([] : List (Fin d → ℝ))) = 0 := by
  have : boxes ([] : List (Fin d → ℝ)) = ∅ := by
    ext z
    simp [boxes]
  rw [this, measure_empty]

/-- Only the largest coordinate counts in one dimension. -/
theorem volume_boxes_one {S : List (Fin 1 → ℝ)} {p : Fin 1 → ℝ} (hp : p ∈ S) (h : ∀ q ∈ S, q 0 ≤ p 0) : volume (boxes S) = ENNReal.ofReal (p 0) := by
  have : boxes S = Set.pi univ fun k => Ioc 0 (p k) := by
    ext z
    simp only [boxes, mem_setOf_eq, mem_pi, mem_univ, forall_const, mem_Ioc]
    constructor
    · rintro ⟨q, hq, hz⟩ k
      rw [Fin.fin_one_eq_zero k]
      exact ⟨(hz 0).1, (hz 0).2.trans (h q hq)⟩
    · exact fun hz => ⟨p, hp, hz⟩
  rw [this]
  exact (Real.volume_pi_Ioc).trans (by simp)

/-- The region only depends on the points that are not covered by others. -/
theorem boxes_congr {d : Nat} {S S' : List (Fin d → ℝ)} (h1 : ∀ p ∈ S, ∃ q ∈ S', p ≤ q) (h2 : ∀ p ∈ S', ∃ q ∈ S, p ≤ q) : boxes S = boxes S' := by
  ext z
  constructor
  · rintro ⟨p, hp, hz⟩
    obtain ⟨q, hq, hpq⟩ := h1 p hp
    exact ⟨q, hq, fun k => ⟨(hz k).1, (hz k).2.trans (hpq k)⟩⟩
  · rintro ⟨p, hp, hz⟩
    obtain ⟨q, hq, hpq⟩ := h2 p hp
    exact ⟨q, hq, fun k => ⟨(hz k).1, (hz k).2.trans (hpq k)⟩⟩

/-- Shifting the points and the reference point together changes nothing. -/
theorem dominatedVolume_shift {d : Nat} (r : Fin d → ℝ) (S : List (Fin d → ℝ)) :
    dominatedVolume 0 (S.map fun p => p + r) = dominatedVolume (-r) S := by
  rw [dominatedVolume, dominatedVolume, ← measure_preimage_add_right volume r]
  congr 2
  ext z
  simp only [mem_preimage, mem_iUnion, List.mem_map, exists_prop, mem_Icc]
  constructor
  · rintro ⟨p, ⟨q, hq, rfl⟩, h1, h2⟩
    exact ⟨q, hq, neg_le_iff_add_nonneg.mpr h1, le_of_add_le_add_right h2⟩
  · rintro ⟨q, hq, h1, h2⟩
    exact ⟨_, ⟨q, hq, rfl⟩, neg_le_iff_add_nonneg.mp h1, add_le_add_left h2 r⟩

end Limbo.Hv
