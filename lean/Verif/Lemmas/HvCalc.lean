import Verif.Lemmas.Hv
import Verif.Lemmas.HvVol
import Verif.Lemmas.XtLaws

/-! `CalculateHypervolume` computes the dominated volume. -/

namespace Limbo.Hv

open MeasureTheory

/-- Coordinate `k` of a point of finite numbers. -/
noncomputable def co (p : List XR) (k : Nat) : ℝ :=
  match p[k]? with
  | some (Xt.fin r) => r
  | _ => 0

/-- The first `D` coordinates exist and are non-negative numbers. -/
def Good (D : Nat) (p : List XR) : Prop := ∀ k < D, ∃ r : ℝ, 0 ≤ r ∧ p[k]? = some (XR.fin r)

theorem Good.get {D : Nat} {p : List XR} (h : Good D p) {k : Nat} (hk : k < D) : p[k]? = some (XR.fin (co p k)) := by
  obtain ⟨r, -, e⟩ := h k hk
  rw [co, e]
  rfl

theorem Good.nonneg {D : Nat} {p : List XR} (h : Good D p) {k : Nat} (hk : k < D) : 0 ≤ co p k := by
  obtain ⟨r, hr, e⟩ := h k hk
  rw [co, e]
  exact hr

theorem Good.mono {D m : Nat} {p : List XR} (h : Good D p) (hm : m ≤ D) : Good m p := fun k hk => h k (lt_of_lt_of_le hk hm)

theorem Good.length {D : Nat} {p : List XR} (h : Good D p) : D ≤ p.length := by
  rcases D with _ | D
  · omega
  · obtain ⟨r, -, e⟩ := h D (by omega)
    have := (List.getElem?_eq_some_iff.mp e).1
    omega

/-- The first `d` coordinates as a vector. -/
noncomputable def vec (d : Nat) (p : List XR) : Fin d → ℝ := fun k => co p k

/-- The first `N` points of the array are good. -/
structure Arr (D N : Nat) (f : List (List XR)) : Prop where
  le : N ≤ f.length
  good : ∀ p ∈ f.take N, Good D p

theorem Arr.rearr {D N : Nat} {f g : List (List XR)} (h : Arr D N f) (r : Rearr N f g) : Arr D N g :=
  ⟨by rw [r.len]; exact h.le, fun p hp => h.good p (r.perm.mem_iff.mp hp)⟩

theorem Arr.mono {D N n m : Nat} {f : List (List XR)} (h : Arr D N f) (hn : n ≤ N) (hm : m ≤ D) : Arr m n f :=
  ⟨hn.trans h.le, fun p hp => (h.good p (List.take_subset_take_left _ hn hp)).mono hm⟩

theorem Rearr.mono {N n : Nat} {α : Type} {f g : List (List α)} (h : Rearr n f g) (hn : n ≤ N) : Rearr N f g := by
  obtain ⟨q, rfl⟩ := Nat.exists_eq_add_of_le hn
  refine ⟨h.len, ?_, ?_⟩
  · rw [List.take_add, List.take_add, h.drop]
    exact h.perm.append_right _
  · rw [← List.drop_drop, ← List.drop_drop, h.drop]

/-- The smallest value of objective `k`. -/
theorem surface_spec {D N k : Nat} {f : List (List XR)} (hA : Arr D N f) (hN : 0 < N) (hk : k < D) :
    ∃ t : ℝ, surface f N k = some (XR.fin t) ∧ (∃ p ∈ f.take N, co p k = t) ∧ ∀ p ∈ f.take N, t ≤ co p k := by
  have loop : ∀ (rest i : Nat) (acc : ℝ), i + rest ≤ N → ∃ t : ℝ, surfaceLoop f k rest i (XR.fin acc) = some (XR.fin t)
      ∧ (t = acc ∨ ∃ a p, i ≤ a ∧ a < i + rest ∧ f[a]? = some p ∧ co p k = t) ∧ t ≤ acc
      ∧ ∀ a p, i ≤ a → a < i + rest → f[a]? = some p → t ≤ co p k := by
    intro rest
    induction rest with
    | zero => exact fun i acc _ => ⟨acc, rfl, .inl rfl, le_refl _, fun a p h1 h2 => by omega⟩
    | succ rest ih =>
      intro i acc h
      have hle := hA.le
      have e := List.getElem?_eq_getElem (show i < f.length by omega)
      have hg := (hA.good _ (mem_take_of_get (show i < N by omega) e)).get hk
      simp only [surfaceLoop, e, hg, Option.bind_eq_bind, Option.bind_some]
      by_cases hl : co f[i] k < acc
      · rw [if_pos ((XR.lt_fin _ _).mpr hl)]
        obtain ⟨t, h1, h2, h3, h4⟩ := ih (i + 1) (co f[i] k) (by omega)
        refine ⟨t, h1, .inr ?_, h3.trans hl.le, fun a p h5 h6 h7 => ?_⟩
        · rcases h2 with h2 | ⟨a, p, h5, h6, h7, h8⟩
          · exact ⟨i, _, le_refl _, by omega, e, h2.symm⟩
          · exact ⟨a, p, by omega, by omega, h7, h8⟩
        · by_cases ha : a = i
          · subst ha
            rw [e] at h7
            cases h7
            exact h3
          · exact h4 a p (by omega) (by omega) h7
      · rw [if_neg (fun hh => hl ((XR.lt_fin _ _).mp hh))]
        obtain ⟨t, h1, h2, h3, h4⟩ := ih (i + 1) acc (by omega)
        refine ⟨t, h1, ?_, h3, fun a p h5 h6 h7 => ?_⟩
        · rcases h2 with h2 | ⟨a, p, h5, h6, h7, h8⟩
          · exact .inl h2
          · exact .inr ⟨a, p, by omega, by omega, h7, h8⟩
        · by_cases ha : a = i
          · subst ha
            rw [e] at h7
            cases h7
            exact h3.trans (not_lt.mp hl)
          · exact h4 a p (by omega) (by omega) h7
  have hle := hA.le
  have e := List.getElem?_eq_getElem (show 0 < f.length by omega)
  have hg := (hA.good _ (mem_take_of_get hN e)).get hk
  obtain ⟨t, h1, h2, h3, h4⟩ := loop (N - 1) 1 (co f[0] k) (by omega)
  refine ⟨t, ?_, ?_, fun p hp => ?_⟩
  · rw [surface, if_neg (by omega)]
    simp only [e, hg, Option.bind_eq_bind, Option.bind_some]
    exact h1
  · rcases h2 with h2 | ⟨a, p, h5, h6, h7, h8⟩
    · exact ⟨_, mem_take_of_get hN e, h2.symm⟩
    · exact ⟨p, mem_take_of_get (by omega) h7, h8⟩
  · obtain ⟨a, ha, hp⟩ := get_of_mem_take hp
    by_cases h0 : a = 0
    · subst h0
      rw [e] at hp
      cases hp
      exact h3
    · exact h4 a p (by omega) (by omega) hp

/-- `ReduceNondominatedSet` keeps every point above the threshold and removes at least one. -/
theorem reduce_spec {D N k : Nat} {f : List (List XR)} {t : ℝ} (hA : Arr D N f) (hk : k < D) (hex : ∃ p ∈ f.take N, co p k ≤ t) :
    ∃ f' n', reduce f N k (XR.fin t) = some (f', n') ∧ Rearr N f f' ∧ n' < N ∧ ∀ p ∈ f'.take N, t < co p k → p ∈ f'.take n' := by
  have loop : ∀ (fuel : Nat) (f : List (List XR)) (n i : Nat), n - i < fuel → Arr D N f → n ≤ N →
      (∀ a p, n ≤ a → a < N → f[a]? = some p → co p k ≤ t) → (n < N ∨ ∃ a p, i ≤ a ∧ a < n ∧ f[a]? = some p ∧ co p k ≤ t) →
      ∃ f' n', reduceLoop k (XR.fin t) fuel f n i = some (f', n') ∧ Rearr N f f' ∧ n' < N ∧ ∀ a p, n' ≤ a → a < N → f'[a]? = some p → co p k ≤ t := by
    intro fuel
    induction fuel with
    | zero =>
      intro f n i h
      omega
    | succ fuel ih =>
      intro f n i h hA hn hr hx
      have hle := hA.le
      by_cases hi : i < n
      · have e := List.getElem?_eq_getElem (show i < f.length by omega)
        have hg := (hA.good _ (mem_take_of_get (show i < N by omega) e)).get hk
        simp only [reduceLoop, if_pos hi, e, hg, Option.bind_eq_bind, Option.bind_some]
        by_cases hl : co f[i] k ≤ t
        · rw [if_pos ((XR.le_fin _ _).mpr hl)]
          obtain ⟨f', hs, hl', hp, hd, hg'⟩ := swap_spec (f := f) (N := N) (i := i) (j := n - 1) (by omega) (by omega) hle
          have hR : Rearr N f f' := ⟨hl', hp, hd⟩
          simp only [hs, Option.bind_some]
          clear hx
          obtain ⟨f2, n2, h1, h2, h3, h4⟩ := ih f' (n - 1) (i + 1) (by omega) (hA.rearr hR) (by omega) (fun a p h1 h2 h3 => by
            rw [hg'] at h3
            by_cases ha : a = n - 1
            · rw [if_pos ha, e] at h3
              cases h3
              exact hl
            · rw [if_neg ha, if_neg (by omega)] at h3
              exact hr a p (by omega) h2 h3) (.inl (by omega))
          exact ⟨f2, n2, h1, hR.trans h2, h3, h4⟩
        · rw [if_neg (fun hh => hl ((XR.le_fin _ _).mp hh))]
          refine ih f n (i + 1) (by omega) hA hn hr ?_
          rcases hx with hx | ⟨a, p, h1, h2, h3, h4⟩
          · exact .inl hx
          · refine .inr ⟨a, p, ?_, h2, h3, h4⟩
            have : a ≠ i := by
              rintro rfl
              rw [e] at h3
              cases h3
              exact hl h4
            omega
      · refine ⟨f, n, by simp only [reduceLoop, if_neg hi], .refl _ _, ?_, hr⟩
        rcases hx with hx | ⟨a, p, h1, h2, h3, h4⟩
        · exact hx
        · omega
  obtain ⟨p, hp, hpt⟩ := hex
  obtain ⟨a, ha, hpa⟩ := get_of_mem_take hp
  obtain ⟨f', n', h1, h2, h3, h4⟩ := loop (N + 1) f N 0 (by omega) hA (le_refl _) (fun a p h1 h2 => by omega) (.inr ⟨a, p, by omega, ha, hpa, hpt⟩)
  refine ⟨f', n', h1, h2, h3, fun p hp hpt => ?_⟩
  obtain ⟨a, ha, hpa⟩ := get_of_mem_take hp
  by_cases han : a < n'
  · exact mem_take_of_get han hpa
  · exact absurd (h4 a p (by omega) ha hpa) (not_le.mpr hpt)

/-- Dominance of good points compares coordinates. -/
theorem hvDom_le {D m : Nat} {p q : List XR} (hm : m ≤ D) (hp : Good D p) (hq : Good D q) (h : HvDom m p q) : vec m q ≤ vec m p :=
  fun k => (XR.le_fin _ _).mp (h.1 k k.2 _ _ (hp.get (by have := k.2; omega)) (hq.get (by have := k.2; omega)))

/-- Filtering does not change the region. -/
theorem filter_boxes {D N m n : Nat} {f : List (List XR)} (hm : m ≤ D) (hA : Arr D N f) (h : FiltInv m N f n n) :
    boxes ((f.take n).map (vec m)) = boxes ((f.take N).map (vec m)) := by
  refine boxes_congr (fun p hp => ?_) fun p hp => ?_
  · obtain ⟨q, hq, rfl⟩ := List.mem_map.mp hp
    exact ⟨_, List.mem_map_of_mem (List.take_subset_take_left _ h.le hq), le_refl _⟩
  · obtain ⟨q, hq, rfl⟩ := List.mem_map.mp hp
    obtain ⟨a, ha, hqa⟩ := get_of_mem_take hq
    by_cases han : a < n
    · exact ⟨_, List.mem_map_of_mem (mem_take_of_get han hqa), le_refl _⟩
    · obtain ⟨b, r, hb, hr, hd⟩ := h.cov a q (by omega) ha hqa
      exact ⟨_, List.mem_map_of_mem (mem_take_of_get hb hr),
        hvDom_le hm (hA.good r (mem_take_of_get (lt_of_lt_of_le hb h.le) hr)) (hA.good q hq) hd⟩

theorem perm_boxes {d : Nat} {l l' : List (List XR)} (h : l.Perm l') : boxes (l.map (vec d)) = boxes (l'.map (vec d)) := by
  refine boxes_congr (fun p hp => ⟨p, ?_, le_refl _⟩) fun p hp => ⟨p, ?_, le_refl _⟩
  · exact (h.map _).mem_iff.mp hp
  · exact (h.map _).mem_iff.mpr hp

theorem filt_pos {m N n : Nat} {α : Type} [Scalar α] {f : List (List α)} (hN : 0 < N) (hle : N ≤ f.length) (h : FiltInv m N f n n) : 0 < n := by
  by_contra hc
  obtain ⟨a, p, ha, -⟩ := h.cov 0 _ (by omega) hN (List.getElem?_eq_getElem (by omega))
  omega

/-- What the recursive call must do. -/
def Correct (d : Nat) (sub : List (List XR) → Nat → Option (XR × List (List XR))) : Prop :=
  ∀ (f : List (List XR)) (N : Nat), Arr d N f →
    ∃ f', sub f N = some (XR.fin (volume (boxes ((f.take N).map (vec d)))).toReal, f') ∧ Rearr N f f'

theorem hvLoop_spec {d : Nat} (hd : 1 ≤ d) {sub : List (List XR) → Nat → Option (XR × List (List XR))} (hsub : 2 ≤ d → Correct d sub) :
    ∀ (fuel : Nat) (f : List (List XR)) (n : Nat) (v δ : ℝ), n < fuel → Arr (d + 1) n f → 0 ≤ δ → (∀ p ∈ f.take n, δ ≤ co p d) →
      ∃ f', hvLoop d sub fuel f n (XR.fin v) (XR.fin δ) = some (XR.fin (v + (volume (above ((f.take n).map (vec (d + 1))) δ)).toReal), f')
        ∧ Rearr n f f' := by
  intro fuel
  induction fuel with
  | zero =>
    intro f n v δ h
    omega
  | succ fuel ih =>
    intro f n v δ h hA h0 hδ
    by_cases hn : 0 < n
    · obtain ⟨f1, n1, hf, hR1, hI⟩ := filter_spec (m := d) hA.le fun p hp => ((hA.good p hp).mono (Nat.le_succ d)).length
      have hA1 := hA.rearr hR1
      have hn1 := filt_pos hn hA1.le hI
      have hbox := filter_boxes (Nat.le_succ d) hA1 hI
      have hlow : ∃ f2, lowerVolume d sub f1 n1 = some (XR.fin (volume (boxes ((f1.take n).map (vec d)))).toReal, f2) ∧ Rearr n f1 f2 := by
        by_cases hd2 : d + 1 < 3
        · obtain rfl : d = 1 := by omega
          have hpos : 0 < f1.length := by have := hA1.le; omega
          have e := List.getElem?_eq_getElem hpos
          have hm0 := mem_take_of_get hn1 e
          have hg := (hA1.good _ (mem_take_of_get hn e))
          refine ⟨f1, ?_, .refl _ _⟩
          rw [lowerVolume, if_pos hd2, if_neg (by omega), ← hbox, volume_boxes_one (p := vec 1 f1[0]) (List.mem_map_of_mem hm0) (fun q hq => ?_)]
          · simp only [e, hg.get (show 0 < 2 by omega), Option.bind_eq_bind, Option.bind_some]
            rw [ENNReal.toReal_ofReal]
            · rfl
            · exact hg.nonneg (show 0 < 2 by omega)
          · obtain ⟨r, hr, rfl⟩ := List.mem_map.mp hq
            obtain ⟨a, ha, hra⟩ := get_of_mem_take hr
            have hgr := hA1.good r (mem_take_of_get (lt_of_lt_of_le ha hI.le) hra)
            by_contra hc
            refine (hI.nd 0 a _ r hn1 hn1 ha e hra).2 ⟨fun k hk x y hx hy => ?_, 0, Nat.one_pos, _, _, hgr.get (show 0 < 2 by omega), hg.get (show 0 < 2 by omega), ?_⟩
            · obtain rfl : k = 0 := by omega
              rw [hgr.get (show 0 < 2 by omega)] at hx
              rw [hg.get (show 0 < 2 by omega)] at hy
              cases hx
              cases hy
              exact (XR.le_fin _ _).mpr (not_le.mp hc).le
            · exact (XR.lt_fin _ _).mpr (not_le.mp hc)
        · rw [lowerVolume, if_neg hd2]
          obtain ⟨f2, h1, h2⟩ := hsub (by omega) f1 n1 (hA1.mono hI.le (Nat.le_succ d))
          exact ⟨f2, by rw [h1, hbox], h2.mono hI.le⟩
      obtain ⟨f2, hl, hR2⟩ := hlow
      have hA2 := hA1.rearr hR2
      have hp2 : (f2.take n).Perm (f.take n) := hR2.perm.trans hR1.perm
      obtain ⟨t, hs, ⟨p0, hp0, hpt⟩, hmin⟩ := surface_spec hA2 hn (Nat.lt_succ_self d)
      obtain ⟨f3, n3, hr, hR3, hn3, hk⟩ := reduce_spec (t := t) hA2 (Nat.lt_succ_self d) ⟨p0, hp0, hpt.le⟩
      have hA3 := hA2.rearr hR3
      have hp3 : (f3.take n).Perm (f.take n) := hR3.perm.trans hp2
      have hδt : δ ≤ t := hpt ▸ hδ p0 (hp2.mem_iff.mp hp0)
      obtain ⟨f4, h4, hR4⟩ := ih f3 n3 (v + (volume (boxes ((f1.take n).map (vec d)))).toReal * (t - δ)) t (by omega) (hA3.mono hn3.le (le_refl _))
        (h0.trans hδt) fun p hp => hmin p (hR3.perm.mem_iff.mp (List.take_subset_take_left _ hn3.le hp))
      refine ⟨f4, ?_, (((hR1.trans hR2).trans hR3).trans (hR4.mono hn3.le))⟩
      simp only [hvLoop, if_pos hn, hf, Option.bind_eq_bind, Option.bind_some, hl, hs, XR.sub_fin, XR.mul_fin, XR.add_fin, hr, h4]
      congr 3
      have e1 : above ((f.take n).map (vec (d + 1))) t = above ((f3.take n3).map (vec (d + 1))) t := by
        refine above_congr (fun p hp => ?_) fun p hp ht => ?_
        · obtain ⟨q, hq, rfl⟩ := List.mem_map.mp hp
          exact List.mem_map_of_mem (hp3.mem_iff.mp (List.take_subset_take_left _ hn3.le hq))
        · obtain ⟨q, hq, rfl⟩ := List.mem_map.mp hp
          exact List.mem_map_of_mem (hk q (hp3.mem_iff.mpr hq) ht)
      have e2 := volume_above (S := (f.take n).map (vec (d + 1))) h0 hδt fun p hp => by
        obtain ⟨q, hq, rfl⟩ := List.mem_map.mp hp
        exact hmin q (hp2.mem_iff.mpr hq)
      rw [List.map_map] at e2
      have e3 : volume (boxes ((f1.take n).map (vec d))) = volume (boxes ((f.take n).map ((fun p => fun k : Fin d => p k.castSucc) ∘ vec (d + 1)))) := by
        rw [perm_boxes hR1.perm]
        rfl
      rw [e2, ← e3, e1, ENNReal.toReal_add, ENNReal.toReal_mul, ENNReal.toReal_ofReal (by linarith), add_assoc]
      · exact ENNReal.mul_ne_top (boxes_finite _) ENNReal.ofReal_ne_top
      · exact ne_top_of_le_ne_top (boxes_finite _) (measure_mono Set.inter_subset_left)
    · obtain rfl : n = 0 := by omega
      refine ⟨f, ?_, .refl _ _⟩
      have : volume (above (([] : List (List XR)).map (vec (d + 1))) δ) = 0 :=
        measure_mono_null Set.inter_subset_left boxes_nil
      simp only [hvLoop, lt_irrefl, if_false, List.take_zero, this, ENNReal.toReal_zero, add_zero]

/-- `CalculateHypervolume` for at least two objectives. -/
theorem hypervolume_spec : ∀ d, 1 ≤ d → Correct (d + 1) (hypervolume (d + 1)) := by
  intro d
  induction d with
  | zero =>
    intro h
    omega
  | succ d ih =>
    intro _ f N hA
    obtain ⟨f', h1, h2⟩ := hvLoop_spec (d := d + 1) (by omega) (sub := hypervolume (d + 1)) (fun h => ih (by omega)) (N + 1) f N 0 0 (by omega) hA
      (le_refl _) fun p hp => (hA.good p hp).nonneg (Nat.lt_succ_self _)
    rw [above_zero, zero_add] at h1
    refine ⟨f', ?_, h2⟩
    rw [← h1]
    simp only [hypervolume, XR.lit_eq, Rat.cast_zero]

end Limbo.Hv
