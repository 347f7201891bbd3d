import Verif.Lemmas.HvCalc
import Mathlib.Data.List.GetD
import Verif.Lemmas.F64Laws

/-! Hypervolume: `hv/hypervol.c` and `experimental/stat/hyper_volume.hpp`. -/

namespace Limbo

open Hv MeasureTheory

section
variable {α : Type} [Scalar α] [LawfulCmp α]

open Classical in
/-- **C85** `FilterNondominatedSet` returns for every array (also of NaNs), permutes its first `N` points, leaves the rest alone, and the first `n`
points afterwards are exactly (with repetitions) those points that no point of the array dominates in the first `m` objectives. -/
theorem C85_filter {f : List (List α)} {N m : Nat} (h : N ≤ f.length) (hw : ∀ p ∈ f.take N, m ≤ p.length) :
    ∃ f' n, filterNondominated f N m = some (f', n) ∧ n ≤ N ∧ (f'.take N).Perm (f.take N) ∧ f'.drop N = f.drop N
      ∧ (f'.take n).Perm ((f.take N).filter fun p => decide (∀ q ∈ f.take N, ¬ HvDom m q p)) := by
  obtain ⟨f', n, h1, h2, h3⟩ := filter_spec h hw
  refine ⟨f', n, h1, h3.le, h2.perm, h2.drop, ?_⟩
  rw [h3.kept fun p hp => hw p (h2.perm.mem_iff.mp hp)]
  have : (fun p => decide (∀ q ∈ f'.take N, ¬ HvDom m q p)) = fun p => decide (∀ q ∈ f.take N, ¬ HvDom m q p) := by
    funext p
    exact decide_eq_decide.mpr ⟨fun hh q hq => hh q (h2.perm.mem_iff.mpr hq), fun hh q hq => hh q (h2.perm.mem_iff.mp hq)⟩
  rw [this]
  exact h2.perm.filter _

/-- Five points, one of them twice, two dominated, one with a NaN: three kept. -/
example : (filterNondominated [[F64.of 1, F64.of 1], [F64.of 3, F64.of 1], [F64.of 1, F64.of 3], [F64.of 3, F64.of 1], [F64.nan, F64.of 9]] 5 2)
    = some ([[F64.nan, F64.of 9], [F64.of 3, F64.of 1], [F64.of 1, F64.of 3], [F64.of 3, F64.of 1], [F64.of 1, F64.of 1]], 4) := by decide +kernel

example := C85_filter (α := F64) (f := [[F64.of 1, F64.of 1], [F64.of 3, F64.of 1], [F64.nan, F64.of 9]]) (N := 3) (m := 2) (by decide) (by decide)

end

theorem co_map (p : List ℝ) (k : Nat) : co (p.map XR.fin) k = p.getD k 0 := by
  rw [co, List.getElem?_map, List.getD_eq_getElem?_getD]
  cases p[k]? <;> rfl

theorem good_map {p : List ℝ} {d : Nat} (hl : d ≤ p.length) (h0 : ∀ k < d, 0 ≤ p.getD k 0) : Good d (p.map XR.fin) := fun k hk =>
  ⟨p.getD k 0, h0 k hk, by
    rw [List.getElem?_map, List.getD_eq_getElem?_getD, List.getElem?_eq_getElem (by omega)]
    rfl⟩

/-- **C86** `CalculateHypervolume` of points with non-negative coordinates and two or more objectives returns, and its result is the volume of the
region dominated by the points (exact arithmetic). -/
theorem C86_hypervolume {pts : List (List ℝ)} {d : Nat} (hd : 2 ≤ d) (hl : ∀ p ∈ pts, d ≤ p.length) (h0 : ∀ p ∈ pts, ∀ k < d, 0 ≤ p.getD k 0) :
    ∃ front', hypervolume d (pts.map fun p => p.map XR.fin) pts.length
      = some (XR.fin (dominatedVolume 0 (pts.map fun p => fun k : Fin d => p.getD k 0)), front') := by
  obtain ⟨d, rfl⟩ : ∃ e, d = e + 1 := ⟨d - 1, by omega⟩
  have ht : (pts.map fun p => p.map XR.fin).take pts.length = pts.map fun p => p.map XR.fin := List.take_of_length_le (by simp)
  obtain ⟨f', h1, -⟩ := hypervolume_spec d (by omega) (pts.map fun p => p.map XR.fin) pts.length ⟨by simp, fun p hp => by
    rw [ht] at hp
    obtain ⟨q, hq, rfl⟩ := List.mem_map.mp hp
    exact good_map (hl q hq) (h0 q hq)⟩
  refine ⟨f', ?_⟩
  rw [h1, ht, volume_boxes, List.map_map]
  congr 5
  funext p k
  exact co_map p k

/-- Two points in two dimensions: 2·1 + 1·2. -/
example := C86_hypervolume (pts := [[2, 1], [1, 3]]) (d := 2) (le_refl _) (by simp)
  (by simp only [List.mem_cons, List.not_mem_nil, or_false, forall_eq_or_imp, forall_eq]; constructor <;> intro k hk <;> interval_cases k <;> norm_num)

example : (hypervolume 3 [[F64.of 1, F64.of 2, F64.of 3], [F64.of 3, F64.of 2, F64.of 1], [F64.of 2, F64.of 2, F64.of 3], [F64.of 2, F64.of 2, F64.of 2]] 4).map
    Prod.fst = some (F64.of 14) := by decide +kernel

/-- The loop for one objective when all points have the value `m`. -/
theorem hvLoop_one {sub : List (List XR) → Nat → Option (XR × List (List XR))} {m : ℝ} :
    ∀ (fuel : Nat) (f : List (List XR)) (n : Nat) (v δ : ℝ), n < fuel → Arr 1 n f → (∀ p ∈ f.take n, co p 0 = m) →
      ∃ f', hvLoop 0 sub fuel f n (XR.fin v) (XR.fin δ) = some (XR.fin (if n = 0 then v else v + m * (m - δ)), f') := by
  intro fuel
  induction fuel with
  | zero =>
    intro f n v δ h
    omega
  | succ fuel ih =>
    intro f n v δ h hA hm
    by_cases hn : 0 < n
    · obtain ⟨f1, n1, hf, hR1, hI⟩ := filter_spec (m := 0) hA.le fun p _ => Nat.zero_le _
      have hA1 := hA.rearr hR1
      have hn1 := filt_pos hn hA1.le hI
      have hpos : 0 < f1.length := by have := hA1.le; omega
      have e := List.getElem?_eq_getElem hpos
      have h0 := mem_take_of_get hn e
      have hlow : lowerVolume 0 sub f1 n1 = some (XR.fin m, f1) := by
        rw [lowerVolume, if_pos (by omega), if_neg (by omega)]
        simp only [e, (hA1.good _ h0).get Nat.one_pos, Option.bind_eq_bind, Option.bind_some, hm _ (hR1.perm.mem_iff.mp h0)]
      obtain ⟨t, hs, ⟨p, hp, rfl⟩, -⟩ := surface_spec hA1 hn Nat.one_pos
      obtain ⟨f3, n3, hr, hR3, hn3, hk⟩ := reduce_spec (t := co p 0) hA1 Nat.one_pos ⟨p, hp, le_refl _⟩
      have hpm := hm p (hR1.perm.mem_iff.mp hp)
      obtain ⟨f4, h4⟩ := ih f3 n3 (v + m * (m - δ)) m (by omega) ((hA1.rearr hR3).mono hn3.le (le_refl _)) fun q hq =>
        hm q (hR1.perm.mem_iff.mp (hR3.perm.mem_iff.mp (List.take_subset_take_left _ hn3.le hq)))
      refine ⟨f4, ?_⟩
      simp only [hvLoop, if_pos hn, hf, Option.bind_eq_bind, Option.bind_some, hlow, hs, hr, XR.sub_fin, XR.mul_fin, XR.add_fin]
      rw [hpm, h4]
      simp [Nat.pos_iff_ne_zero.mp hn]
    · obtain rfl : n = 0 := by omega
      exact ⟨f, by simp only [hvLoop, lt_irrefl, if_false, if_true]⟩

/-- **C86** (finding) With one objective the result of filtering and `CalculateHypervolume` is the *square* of the largest value. -/
theorem C86_one_objective {pts : List ℝ} {m : ℝ} (hm : m ∈ pts) (hmax : ∀ x ∈ pts, x ≤ m) (h0 : ∀ x ∈ pts, 0 ≤ x) :
    ∃ f n f', filterNondominated (pts.map fun x => [XR.fin x]) pts.length 1 = some (f, n) ∧ hypervolume 1 f n = some (XR.fin (m ^ 2), f') := by
  have ht : (pts.map fun x => [XR.fin x]).take pts.length = pts.map fun x => [XR.fin x] := List.take_of_length_le (by simp)
  have hA : Arr 1 pts.length (pts.map fun x => [XR.fin x]) := ⟨by simp, fun p hp => by
    rw [ht] at hp
    obtain ⟨q, hq, rfl⟩ := List.mem_map.mp hp
    intro k hk
    obtain rfl : k = 0 := by omega
    exact ⟨q, h0 q hq, rfl⟩⟩
  obtain ⟨f, n, h1, hR, hI⟩ := filter_spec (m := 1) hA.le fun p hp => (hA.good p hp).length
  have hA1 := hA.rearr hR
  have hpos : 0 < pts.length := List.length_pos_of_mem hm
  have hn := filt_pos hpos hA1.le hI
  obtain ⟨f', h2⟩ := hvLoop_one (sub := hypervolume 0) (m := m) (n + 1) f n 0 0 (by omega) (hA1.mono hI.le (le_refl _)) fun p hp => by
    obtain ⟨a, ha, hpa⟩ := get_of_mem_take hp
    have hpN := mem_take_of_get (lt_of_lt_of_le ha hI.le) hpa
    have hmem := hR.perm.mem_iff.mp hpN
    rw [ht] at hmem
    obtain ⟨x, hx, rfl⟩ := List.mem_map.mp hmem
    refine le_antisymm (hmax x hx) (not_lt.mp fun hc => ?_)
    have hmN : [XR.fin m] ∈ f.take pts.length := hR.perm.mem_iff.mpr (by rw [ht]; exact List.mem_map_of_mem hm)
    have hdom : HvDom 1 [XR.fin m] [XR.fin x] := ⟨fun k hk a b h1 h2 => by
      obtain rfl : k = 0 := by omega
      cases h1
      cases h2
      exact (XR.le_fin _ _).mpr (le_of_lt hc), 0, Nat.one_pos, _, _, rfl, rfl, (XR.lt_fin _ _).mpr hc⟩
    have hk := hI.kept fun p hp => (hA1.good p hp).length
    rw [hk] at hp
    exact (@of_decide_eq_true _ (_) (List.mem_filter.mp hp).2) _ hmN hdom
  refine ⟨f, n, f', h1, ?_⟩
  have := h2
  rw [if_neg (by omega), sub_zero, zero_add, ← sq] at this
  rw [← this]
  simp only [hypervolume, XR.lit_eq, Rat.cast_zero]

example := C86_one_objective (pts := [1, 3, 2]) (m := 3) (by simp) (by simp; norm_num) (by simp)

/-- **C86** (finding) With a point that is not above the reference point the result is not the dominated volume: of (2, -1) and (1, 3) only the second
dominates a region, of volume 3, but the result is 2. -/
theorem C86_below_reference : (hypervolume 2 [[F64.of 2, F64.of (-1)], [F64.of 1, F64.of 3]] 2).map Prod.fst = some (F64.of 2)
    ∧ dominatedVolume 0 [![2, -1], ![1, 3]] = 3 := by
  refine ⟨by decide +kernel, ?_⟩
  have e : (⋃ p ∈ [![(2 : ℝ), -1], ![1, 3]], Set.Icc 0 p) = Set.Icc 0 ![1, 3] := by
    have : Set.Icc (0 : Fin 2 → ℝ) ![2, -1] = ∅ := Set.Icc_eq_empty fun h => by
      have := h 1
      norm_num at this
    simp [this]
  rw [dominatedVolume, e, Real.volume_Icc_pi]
  simp [Fin.prod_univ_two]

/-- **C87** The statistic `HyperVolume` adds to its log, whatever happened before, one row: the current iteration and the volume of the region between
the reference point `-ref` and the observations; provided that there are two or more objectives, at most as many as `ref` has values, and no
observation is below the reference point. -/
theorem C87_hyper_volume_stat {M : Type} {st : BoState XR M} {afun : List XR → XR} {ref : List ℝ} {obs : List (List ℝ)} {d : Nat} (hd : 2 ≤ d)
    (hr : d ≤ ref.length) (hne : obs ≠ []) (hst : st.observations = obs.map fun o => o.map XR.fin) (hl : ∀ o ∈ obs, o.length = d)
    (h0 : ∀ o ∈ obs, ∀ k < d, -ref.getD k 0 ≤ o.getD k 0) :
    statHyperVolume (ref.map XR.fin) st afun
      = some [.row st.currentIteration [XR.fin (dominatedVolume (fun k : Fin d => -ref.getD k 0) (obs.map fun o => fun k : Fin d => o.getD k 0))]] := by
  obtain ⟨d, rfl⟩ : ∃ e, d = e + 1 := ⟨d - 1, by omega⟩
  have hdata : statData (ref.map XR.fin) (obs.map fun o => o.map XR.fin)
      = some (obs.map fun o => (List.zipWith (fun x r => x + r) o ref).map XR.fin) := by
    have : ∀ l : List (List ℝ), (∀ o ∈ l, o.length = d + 1) → statData (ref.map XR.fin) (l.map fun o => o.map XR.fin)
        = some (l.map fun o => (List.zipWith (fun x r => x + r) o ref).map XR.fin) := by
      intro l
      induction l with
      | nil => exact fun _ => rfl
      | cons o l ih =>
        intro h
        have ih' := ih fun o ho => h o (List.mem_cons_of_mem _ ho)
        simp only [statData] at ih' ⊢
        rw [List.map_cons, List.mapM_cons, ih', if_pos (by have := h o List.mem_cons_self; simp; omega)]
        simp only [Option.bind_eq_bind, Option.bind_some, List.map_cons, Option.pure_def]
        congr 2
        rw [List.zipWith_map, List.map_zipWith]
        rfl
    exact this obs hl
  set data := obs.map fun o => (List.zipWith (fun x r => x + r) o ref).map XR.fin with hdef
  have hlen : data.length = obs.length := by simp [data]
  have ht : data.take obs.length = data := List.take_of_length_le hlen.le
  have hzip : ∀ o ∈ obs, ∀ k < d + 1, (List.zipWith (fun x r => x + r) o ref).getD k 0 = o.getD k 0 + ref.getD k 0 := by
    intro o ho k hk
    have := hl o ho
    rw [List.getD_eq_getElem _ _ (by simp; omega), List.getD_eq_getElem _ _ (by omega), List.getD_eq_getElem _ _ (by omega), List.getElem_zipWith]
  have hA : Arr (d + 1) obs.length data := ⟨hlen.ge, fun p hp => by
    rw [ht] at hp
    obtain ⟨o, ho, rfl⟩ := List.mem_map.mp hp
    have := hl o ho
    refine good_map (by simp; omega) fun k hk => ?_
    rw [hzip o ho k hk]
    linarith [h0 o ho k hk]⟩
  obtain ⟨f, n, h1, hR, hI⟩ := filter_spec (m := d + 1) hA.le fun p hp => (hA.good p hp).length
  obtain ⟨f', h2, -⟩ := hypervolume_spec d (by omega) f n ((hA.rearr hR).mono hI.le (le_refl _))
  rw [filter_boxes (le_refl _) (hA.rearr hR) hI, perm_boxes hR.perm, ht, volume_boxes] at h2
  have hvol : dominatedVolume 0 (data.map (vec (d + 1)))
      = dominatedVolume (fun k : Fin (d + 1) => -ref.getD k 0) (obs.map fun o => fun k : Fin (d + 1) => o.getD k 0) := by
    have : data.map (vec (d + 1)) = (obs.map fun o => fun k : Fin (d + 1) => o.getD k 0).map fun p => p + fun k : Fin (d + 1) => ref.getD k 0 := by
      rw [hdef, List.map_map, List.map_map]
      refine List.map_congr_left fun o ho => ?_
      funext k
      exact (co_map _ _).trans (hzip o ho k k.2)
    rw [this, dominatedVolume_shift]
    rfl
  rw [hvol] at h2
  cases hobs : obs with
  | nil => exact absurd hobs hne
  | cons o os =>
    have ho : o.length = d + 1 := hl o (by rw [hobs]; exact List.mem_cons_self)
    rw [← hobs]
    have hst' : st.observations = o.map XR.fin :: os.map fun o => o.map XR.fin := by rw [hst, hobs]; rfl
    rw [statHyperVolume]
    simp only [hst']
    rw [show (o.map XR.fin :: os.map fun o => o.map XR.fin) = obs.map fun o => o.map XR.fin by rw [hobs]; rfl, hdata]
    simp only [Option.bind_eq_bind, Option.bind_some, List.length_map, ho, h1, h2]

/-- Two observations of two objectives, the reference values of the library's defaults. -/
example (st : BoState XR Unit) (h : st.observations = [[XR.fin 1, XR.fin (-2)], [XR.fin (-3), XR.fin 4]]) :=
  C87_hyper_volume_stat (st := st) (afun := fun v => v.headD (XR.fin 0)) (ref := [10, 10]) (obs := [[1, -2], [-3, 4]]) (d := 2) (le_refl _) (le_refl _) (by simp)
    h (by simp) (by
      simp only [List.mem_cons, List.not_mem_nil, or_false, forall_eq_or_imp, forall_eq]
      constructor <;> intro k hk <;> interval_cases k <;> norm_num)

/-- **C87** (finding) With more objectives than `ref` has values (the default has two) the statistic is undefined. -/
theorem C87_too_many_objectives {α M : Type} [Scalar α] {st : BoState α M} {afun : List α → α} {ref : List α}
    (h : ∃ o ∈ st.observations, ref.length < o.length) : statHyperVolume ref st afun = none := by
  have key : ∀ l : List (List α), (∃ o ∈ l, ref.length < o.length) → statData ref l = none := by
    intro l
    induction l with
    | nil => exact fun ⟨o, ho, _⟩ => absurd ho (by simp)
    | cons p l ih =>
      rintro ⟨o, ho, hl⟩
      rw [statData, List.mapM_cons]
      rcases List.mem_cons.mp ho with rfl | ho
      · rw [if_neg (by omega)]
        rfl
      · have := ih ⟨o, ho, hl⟩
        rw [statData] at this
        split
        · simp only [Option.bind_eq_bind, Option.bind_some, this, Option.bind_none]
        · rfl
  rw [statHyperVolume]
  cases hobs : st.observations with
  | nil =>
    rw [hobs] at h
    exact absurd h.choose_spec.1 (by simp)
  | cons o os =>
    rw [hobs] at h
    simp only [key _ h, Option.bind_eq_bind, Option.bind_none]

example (st : BoState F64 Unit) (h : st.observations = [[F64.of 1, F64.of 2, F64.of 3]]) :=
  C87_too_many_objectives (st := st) (afun := fun v => v.headD (F64.of 0)) (ref := [F64.of 10, F64.of 10]) ⟨_, by rw [h]; exact List.mem_cons_self, by decide⟩

end Limbo
