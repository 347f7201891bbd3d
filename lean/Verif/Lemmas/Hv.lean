import Verif.Model.Hv
import Verif.Spec.Hv

/-! Dominance, swapping, filtering and reducing in `hv/hypervol.c`. -/

namespace Limbo.Hv

variable {α : Type} [Scalar α]

/-- The loop returns whether the remaining coordinates are nowhere smaller and a larger one was seen. -/
theorem domLoop_spec (p q : List α) : ∀ (r i : Nat) (b : Bool), i + r ≤ p.length → i + r ≤ q.length →
    ∃ c, domLoop p q r i b = some c ∧ (c = true ↔ (∀ k, i ≤ k → k < i + r → ∀ x y, p[k]? = some x → q[k]? = some y → le y x = true)
      ∧ (b = true ∨ ∃ k, i ≤ k ∧ k < i + r ∧ ∃ x y, p[k]? = some x ∧ q[k]? = some y ∧ lt y x = true)) := by
  intro r
  induction r with
  | zero =>
    intro i b hp hq
    refine ⟨b, rfl, fun h => ⟨fun k h1 h2 => by omega, .inl h⟩, fun h => h.2.elim id fun ⟨k, h1, h2, _⟩ => by omega⟩
  | succ r ih =>
    intro i b hp hq
    have h1 : i < p.length := by omega
    have h2 : i < q.length := by omega
    have e1 := List.getElem?_eq_getElem h1
    have e2 := List.getElem?_eq_getElem h2
    by_cases hle : le q[i] p[i] = true
    · obtain ⟨c, hc, hs⟩ := ih (i + 1) (if lt q[i] p[i] then true else b) (by omega) (by omega)
      refine ⟨c, by simp only [domLoop, e1, e2, Option.bind_eq_bind, Option.bind_some, hle, if_true]; exact hc, ?_⟩
      rw [hs]
      constructor
      · rintro ⟨h3, h4⟩
        refine ⟨fun k hk1 hk2 x y hx hy => ?_, ?_⟩
        · by_cases hk : k = i
          · subst hk
            rw [e1] at hx
            rw [e2] at hy
            cases hx
            cases hy
            exact hle
          · exact h3 k (by omega) (by omega) x y hx hy
        · rcases h4 with h4 | ⟨k, hk1, hk2, h5⟩
          · by_cases hl : lt q[i] p[i] = true
            · exact .inr ⟨i, le_refl _, by omega, _, _, e1, e2, hl⟩
            · rw [if_neg hl] at h4
              exact .inl h4
          · exact .inr ⟨k, by omega, by omega, h5⟩
      · rintro ⟨h3, h4⟩
        refine ⟨fun k hk1 hk2 => h3 k (by omega) (by omega), ?_⟩
        rcases h4 with h4 | ⟨k, hk1, hk2, x, y, hx, hy, hl⟩
        · left
          split
          · rfl
          · exact h4
        · by_cases hk : k = i
          · subst hk
            rw [e1] at hx
            rw [e2] at hy
            cases hx
            cases hy
            exact .inl (if_pos hl)
          · exact .inr ⟨k, by omega, by omega, x, y, hx, hy, hl⟩
    · refine ⟨false, by simp only [domLoop, e1, e2, Option.bind_eq_bind, Option.bind_some, hle]; rfl, ?_⟩
      refine ⟨fun h => by simp at h, fun h => ?_⟩
      exact absurd (h.1 i (le_refl _) (by omega) _ _ e1 e2) hle

/-- `Dominates` decides dominance. -/
theorem dominates_spec {p q : List α} {m : Nat} (hp : m ≤ p.length) (hq : m ≤ q.length) :
    ∃ c, dominates p q m = some c ∧ (c = true ↔ HvDom m p q) := by
  obtain ⟨c, hc, hs⟩ := domLoop_spec p q m 0 false (by omega) (by omega)
  refine ⟨c, hc, hs.trans ?_⟩
  simp only [Nat.zero_add, Nat.zero_le, true_and, forall_const, Bool.false_eq_true, false_or]
  rfl

section
variable [LawfulCmp α]

theorem HvDom.irrefl (m : Nat) (p : List α) : ¬ HvDom m p p := by
  rintro ⟨-, k, -, a, b, ha, hb, hl⟩
  rw [ha] at hb
  cases hb
  rw [LawfulCmp.lt_irrefl'] at hl
  exact absurd hl (by simp)

theorem HvDom.trans {m : Nat} {p q r : List α} (hp : m ≤ p.length) (hq : m ≤ q.length) (h1 : HvDom m p q) (h2 : HvDom m q r) : HvDom m p r := by
  refine ⟨fun k hk a c ha hc => ?_, ?_⟩
  · have e := List.getElem?_eq_getElem (show k < q.length by omega)
    exact LawfulCmp.le_trans _ _ _ (h2.1 k hk _ _ e hc) (h1.1 k hk _ _ ha e)
  · obtain ⟨-, k, hk, b, c, hb, hc, hl⟩ := h2
    obtain ⟨hle, k', hk', a', b', ha', hb', hl'⟩ := h1
    refine ⟨k, hk, ?_⟩
    have e := List.getElem?_eq_getElem (show k < p.length by omega)
    exact ⟨_, c, e, hc, LawfulCmp.lt_of_lt_of_le hl (hle k hk _ _ e hb)⟩
end

/-- What `Swap` does. -/
theorem swap_spec {f : List (List α)} {N i j : Nat} (hi : i < N) (hj : j < N) (hN : N ≤ f.length) :
    ∃ f', swap f i j = some f' ∧ f'.length = f.length ∧ (f'.take N).Perm (f.take N) ∧ f'.drop N = f.drop N
      ∧ ∀ a, f'[a]? = if a = j then f[i]? else if a = i then f[j]? else f[a]? := by
  have h1 : i < f.length := by omega
  have h2 : j < f.length := by omega
  refine ⟨(f.set i f[j]).set j f[i], ?_, by simp, ?_, ?_, fun a => ?_⟩
  · simp only [swap, List.getElem?_eq_getElem h1, List.getElem?_eq_getElem h2, Option.bind_eq_bind, Option.bind_some]
  · rw [List.take_set, List.take_set]
    have := List.set_set_perm (as := f.take N) (i := i) (j := j) (by simp; omega) (by simp; omega)
    simpa using this
  · rw [List.drop_set_of_lt (by omega), List.drop_set_of_lt (by omega)]
  · rw [List.getElem?_set, List.getElem?_set]
    by_cases ha : a = j
    · subst ha
      simp [h1, h2]
    · rw [if_neg (fun h => ha h.symm), if_neg ha]
      by_cases hb : a = i
      · subst hb
        simp [h1, h2]
      · rw [if_neg (fun h => hb h.symm), if_neg hb]

/-- The array holds the points of `f0`, those from `N` on untouched. -/
structure Rearr (N : Nat) (f0 f : List (List α)) : Prop where
  len : f.length = f0.length
  perm : (f.take N).Perm (f0.take N)
  drop : f.drop N = f0.drop N

theorem Rearr.refl (N : Nat) (f : List (List α)) : Rearr N f f := ⟨rfl, .refl _, rfl⟩

theorem Rearr.trans {N : Nat} {f g h : List (List α)} (a : Rearr N f g) (b : Rearr N g h) : Rearr N f h :=
  ⟨b.len.trans a.len, b.perm.trans a.perm, b.drop.trans a.drop⟩

theorem mem_take_of_get {f : List (List α)} {N a : Nat} {p : List α} (ha : a < N) (h : f[a]? = some p) : p ∈ f.take N := by
  rw [List.mem_iff_getElem?]
  exact ⟨a, by rw [List.getElem?_take_of_lt ha, h]⟩

theorem get_of_mem_take {f : List (List α)} {N : Nat} {p : List α} (h : p ∈ f.take N) : ∃ a < N, f[a]? = some p := by
  rw [List.mem_iff_getElem?] at h
  obtain ⟨a, ha⟩ := h
  by_cases hN : a < N
  · exact ⟨a, hN, by rwa [List.getElem?_take_of_lt hN] at ha⟩
  · rw [List.getElem?_eq_none (by rw [List.length_take]; omega)] at ha
    exact absurd ha (by simp)

/-- The state of `FilterNondominatedSet`: `n` points left, the first `i` compared with all of them. -/
structure FiltInv (m N : Nat) (f : List (List α)) (n i : Nat) : Prop where
  le : n ≤ N
  nd : ∀ a b p q, a < i → a < n → b < n → f[a]? = some p → f[b]? = some q → ¬ HvDom m p q ∧ ¬ HvDom m q p
  cov : ∀ b q, n ≤ b → b < N → f[b]? = some q → ∃ a p, a < n ∧ f[a]? = some p ∧ HvDom m p q

section
variable [LawfulCmp α]

theorem filterInner_spec {m N i : Nat} : ∀ (fuel : Nat) (f : List (List α)) (n j : Nat), n - j < fuel → N ≤ f.length → i < j → i < n →
    (∀ p ∈ f.take N, m ≤ p.length) → FiltInv m N f n i →
    (∀ b p q, i < b → b < j → b < n → f[i]? = some p → f[b]? = some q → ¬ HvDom m p q ∧ ¬ HvDom m q p) →
    ∃ f' n' r, filterInner m i fuel f n j = some (f', n', r) ∧ Rearr N f f' ∧ n' ≤ n ∧ (r = true → n' < n ∧ FiltInv m N f' n' i)
      ∧ (r = false → FiltInv m N f' n' (i + 1)) := by
  intro fuel
  induction fuel with
  | zero =>
    intro f n j h1
    omega
  | succ fuel ih =>
    intro f n j h1 h2 h3 h4 hw hI hb
    have hn := hI.le
    by_cases hj : j < n
    · have e1 := List.getElem?_eq_getElem (show i < f.length by omega)
      have e2 := List.getElem?_eq_getElem (show j < f.length by omega)
      have w1 := hw _ (mem_take_of_get (show i < N by omega) e1)
      have w2 := hw _ (mem_take_of_get (show j < N by omega) e2)
      obtain ⟨c1, d1, s1⟩ := dominates_spec w1 w2
      obtain ⟨c2, d2, s2⟩ := dominates_spec w2 w1
      simp only [filterInner, if_pos hj, e1, e2, Option.bind_eq_bind, Option.bind_some, d1]
      cases c1 with
      | true =>
        have hd := s1.mp rfl
        obtain ⟨f', hs, hl, hp, hdr, hg⟩ := swap_spec (f := f) (N := N) (i := j) (j := n - 1) (by omega) (by omega) h2
        simp only [if_true, hs, Option.bind_some]
        have hi' : f'[i]? = f[i]? := by rw [hg, if_neg (by omega), if_neg (by omega)]
        have hR : Rearr N f f' := ⟨hl, hp, hdr⟩
        have old : ∀ a, a < n - 1 → ∃ a', a' < n ∧ f'[a]? = f[a']? ∧ (a < j → a' = a) := by
          intro a ha
          rw [hg, if_neg (by omega)]
          by_cases haj : a = j
          · exact ⟨n - 1, by omega, if_pos haj, by omega⟩
          · exact ⟨a, by omega, if_neg haj, fun _ => rfl⟩
        obtain ⟨f2, n2, r, h5, h6, h7, h8, h9⟩ := ih f' (n - 1) j (by omega) (by rw [hl]; exact h2) h3 (by omega)
          (fun p hpm => hw p (hp.mem_iff.mp hpm)) ⟨by omega, fun a b p q ha ha' hb' hpa hqb => by
            obtain ⟨b', hb1, hb2, -⟩ := old b hb'
            obtain ⟨a', ha1, ha2, ha3⟩ := old a ha'
            rw [ha2, ha3 (by omega)] at hpa
            rw [hb2] at hqb
            exact hI.nd a b' p q ha (by omega) hb1 hpa hqb, fun b q hb1 hb2 hq => by
            have key : ∀ a p, a < n → f[a]? = some p → HvDom m p q → ∃ a p, a < n - 1 ∧ f'[a]? = some p ∧ HvDom m p q := by
              intro a p ha hpa hdom
              by_cases haj : a = j
              · subst haj
                rw [e2] at hpa
                cases hpa
                exact ⟨i, _, by omega, hi'.trans e1, HvDom.trans w1 w2 hd hdom⟩
              · by_cases han : a = n - 1
                · refine ⟨j, p, by omega, ?_, hdom⟩
                  rw [hg, if_neg (by omega), if_pos rfl, ← han, hpa]
                · refine ⟨a, p, by omega, ?_, hdom⟩
                  rw [hg, if_neg han, if_neg haj, hpa]
            by_cases hbn : b = n - 1
            · rw [hg, if_pos hbn, e2] at hq
              cases hq
              exact key i _ (by omega) e1 hd
            · rw [hg, if_neg hbn, if_neg (by omega)] at hq
              obtain ⟨a, p, ha, hpa, hdom⟩ := hI.cov b q (by omega) hb2 hq
              exact key a p ha hpa hdom⟩ (fun b p q hb1 hb2 hb3 hp' hq => by
            obtain ⟨b', hb4, hb5, hb6⟩ := old b hb3
            rw [hi'] at hp'
            rw [hb5, hb6 hb2] at hq
            exact hb b p q hb1 hb2 (by omega) hp' hq)
        exact ⟨f2, n2, r, h5, hR.trans h6, by omega, fun h => ⟨by have := (h8 h).1; omega, (h8 h).2⟩, h9⟩
      | false =>
        simp only [Bool.false_eq_true, if_false, d2, Option.bind_some]
        have hnd : ¬ HvDom m f[i] f[j] := fun h => by simpa using s1.mpr h
        cases c2 with
        | true =>
          have hd := s2.mp rfl
          obtain ⟨f', hs, hl, hp, hdr, hg⟩ := swap_spec (f := f) (N := N) (i := i) (j := n - 1) (by omega) (by omega) h2
          simp only [if_true, hs, Option.bind_some]
          refine ⟨f', n - 1, true, rfl, ⟨hl, hp, hdr⟩, by omega, fun _ => ⟨by omega, by omega, fun a b p q ha ha' hb' hpa hqb => ?_, ?_⟩, by simp⟩
          · rw [hg, if_neg (by omega), if_neg (by omega)] at hpa
            rw [hg, if_neg (by omega)] at hqb
            by_cases hbi : b = i
            · rw [if_pos hbi] at hqb
              exact hI.nd a (n - 1) p q ha (by omega) (by omega) hpa hqb
            · rw [if_neg hbi] at hqb
              exact hI.nd a b p q ha (by omega) (by omega) hpa hqb
          · intro b q hb1 hb2 hq
            have hjn : ∃ a < n - 1, f'[a]? = f[j]? := by
              by_cases hj' : j = n - 1
              · exact ⟨i, by omega, by rw [hg, if_neg (by omega), if_pos rfl, hj']⟩
              · exact ⟨j, by omega, by rw [hg, if_neg hj', if_neg (by omega)]⟩
            have key : ∀ a p, a < n → f[a]? = some p → HvDom m p q → ∃ a p, a < n - 1 ∧ f'[a]? = some p ∧ HvDom m p q := by
              intro a p ha hpa hdom
              by_cases hai : a = i
              · subst hai
                rw [e1] at hpa
                cases hpa
                obtain ⟨a, ha1, ha2⟩ := hjn
                exact ⟨a, _, ha1, ha2.trans e2, HvDom.trans w2 w1 hd hdom⟩
              · by_cases han : a = n - 1
                · refine ⟨i, p, by omega, ?_, hdom⟩
                  rw [hg, if_neg (by omega), if_pos rfl, ← han, hpa]
                · refine ⟨a, p, by omega, ?_, hdom⟩
                  rw [hg, if_neg han, if_neg hai, hpa]
            by_cases hbn : b = n - 1
            · rw [hg, if_pos hbn, e1] at hq
              cases hq
              exact key j _ hj e2 hd
            · rw [hg, if_neg hbn, if_neg (by omega)] at hq
              obtain ⟨a, p, ha, hpa, hdom⟩ := hI.cov b q (by omega) hb2 hq
              exact key a p ha hpa hdom
        | false =>
          simp only [Bool.false_eq_true, if_false]
          have hnd2 : ¬ HvDom m f[j] f[i] := fun h => by simpa using s2.mpr h
          exact ih f n (j + 1) (by omega) h2 (by omega) h4 hw hI fun b p q hb1 hb2 hb3 hp' hq => by
            by_cases hbj : b = j
            · subst hbj
              rw [e1] at hp'
              rw [e2] at hq
              cases hp'
              cases hq
              exact ⟨hnd, hnd2⟩
            · exact hb b p q hb1 (by omega) hb3 hp' hq
    · refine ⟨f, n, false, by simp only [filterInner, if_neg hj], .refl _ _, le_refl _, by simp, fun _ => ⟨hn, fun a b p q ha ha' hb' hpa hqb => ?_, hI.cov⟩⟩
      by_cases hai : a = i
      · subst hai
        rcases Nat.lt_trichotomy b a with h | h | h
        · exact (hI.nd b a q p h hb' ha' hqb hpa).symm
        · subst h
          rw [hpa] at hqb
          cases hqb
          exact ⟨HvDom.irrefl _ _, HvDom.irrefl _ _⟩
        · exact hb b p q h (by omega) hb' hpa hqb
      · exact hI.nd a b p q (by omega) ha' hb' hpa hqb

theorem filterOuter_spec {m N : Nat} : ∀ (fuel : Nat) (f : List (List α)) (n i : Nat), n - i < fuel → N ≤ f.length →
    (∀ p ∈ f.take N, m ≤ p.length) → FiltInv m N f n i →
    ∃ f' n', filterOuter m fuel f n i = some (f', n') ∧ Rearr N f f' ∧ FiltInv m N f' n' n' := by
  intro fuel
  induction fuel with
  | zero =>
    intro f n i h1
    omega
  | succ fuel ih =>
    intro f n i h1 h2 hw hI
    by_cases hi : i < n
    · obtain ⟨f', n', r, h4, h5, h6, h7, h8⟩ := filterInner_spec (n + 1) f n (i + 1) (by omega) h2 (by omega) hi hw hI (fun b p q h1 h2 => by omega)
      simp only [filterOuter, if_pos hi, h4, Option.bind_eq_bind, Option.bind_some]
      have hw' : ∀ p ∈ f'.take N, m ≤ p.length := fun p hp => hw p (h5.perm.mem_iff.mp hp)
      have h2' : N ≤ f'.length := by rw [h5.len]; exact h2
      cases r with
      | true =>
        obtain ⟨f2, n2, h9, h10, h11⟩ := ih f' n' i (by have := (h7 rfl).1; omega) h2' hw' (h7 rfl).2
        exact ⟨f2, n2, h9, h5.trans h10, h11⟩
      | false =>
        obtain ⟨f2, n2, h9, h10, h11⟩ := ih f' n' (i + 1) (by omega) h2' hw' (h8 rfl)
        exact ⟨f2, n2, h9, h5.trans h10, h11⟩
    · refine ⟨f, n, by simp only [filterOuter, if_neg hi], .refl _ _, hI.le, fun a b p q ha ha' hb' => ?_, hI.cov⟩
      exact hI.nd a b p q (by omega) ha' hb'

/-- `FilterNondominatedSet`: the points are permuted and the first `n'` are mutually non-dominated and cover the others. -/
theorem filter_spec {f : List (List α)} {N m : Nat} (h : N ≤ f.length) (hw : ∀ p ∈ f.take N, m ≤ p.length) :
    ∃ f' n', filterNondominated f N m = some (f', n') ∧ Rearr N f f' ∧ FiltInv m N f' n' n' :=
  filterOuter_spec (N + 1) f N 0 (by omega) h hw ⟨le_refl _, fun a b p q ha => by omega, fun b q h1 h2 => by omega⟩

open Classical in
/-- The kept points are those that no point dominates. -/
theorem FiltInv.kept {f : List (List α)} {N m n : Nat} (hw : ∀ p ∈ f.take N, m ≤ p.length) (h : FiltInv m N f n n) :
    f.take n = (f.take N).filter fun p => decide (∀ q ∈ f.take N, ¬ HvDom m q p) := by
  have e : f.take N = f.take n ++ (f.take N).drop n := by
    conv_lhs => rw [← List.take_append_drop n (f.take N), List.take_take, min_eq_left h.le]
  conv_rhs => rw [e, List.filter_append]
  rw [List.filter_eq_self.mpr, List.filter_eq_nil_iff.mpr, List.append_nil]
  · intro p hp
    simp only [decide_eq_true_eq, not_forall, not_not, ← e]
    obtain ⟨b, hb⟩ := List.mem_iff_getElem?.mp hp
    rw [List.getElem?_drop] at hb
    have hbN : n + b < N := by
      by_contra hc
      rw [List.getElem?_eq_none (by rw [List.length_take]; omega)] at hb
      exact absurd hb (by simp)
    rw [List.getElem?_take_of_lt hbN] at hb
    obtain ⟨a, q, ha, hq, hd⟩ := h.cov _ p (Nat.le_add_right _ _) hbN hb
    exact ⟨q, mem_take_of_get (lt_of_lt_of_le ha h.le) hq, hd⟩
  · intro p hp
    simp only [decide_eq_true_eq, ← e]
    intro q hq hd
    obtain ⟨a, ha, hpa⟩ := get_of_mem_take hp
    obtain ⟨b, hb, hqb⟩ := get_of_mem_take hq
    by_cases hbn : b < n
    · exact (h.nd a b p q ha ha hbn hpa hqb).2 hd
    · obtain ⟨c, r, hc, hr, hdr⟩ := h.cov b q (by omega) hb hqb
      exact (h.nd a c p r ha ha hc hpa hr).2 (HvDom.trans (hw r (mem_take_of_get (lt_of_lt_of_le hc h.le) hr)) (hw q hq) hdr hd)

end

end Limbo.Hv
