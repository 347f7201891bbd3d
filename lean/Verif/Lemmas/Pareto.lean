import Verif.Model.Pareto
import Verif.Spec.Pareto
import Verif.Lemmas.Par
import Mathlib.Tactic.Linarith

namespace Limbo

set_option linter.unusedSectionVars false
variable {α P : Type} [Scalar α] [LawfulCmp α]
open LawfulCmp

/-! ## dominance -/

theorem domFlags_eq : ∀ (a b : List α) (f1 f2 : Bool),
    domFlags a b f1 f2 = (f1 || (domFlags a b false false).1, f2 || (domFlags a b false false).2) := by
  intro a
  induction a with
  | nil => intro b f1 f2; simp [domFlags]
  | cons x xs ih =>
    intro b f1 f2
    cases b with
    | nil => simp [domFlags]
    | cons y ys =>
      simp only [domFlags]
      split
      · rw [ih ys true f2, ih ys true false]; simp
      · split
        · rw [ih ys f1 true, ih ys false true]; simp
        · rw [ih ys f1 f2]

theorem domFlags_spec : ∀ (a b : List α),
    ((domFlags a b false false).1 = true ↔ ∃ (i : Nat) (x y : α), a[i]? = some x ∧ b[i]? = some y ∧ lt y x = true) ∧
    ((domFlags a b false false).2 = true ↔ ∃ (i : Nat) (x y : α), a[i]? = some x ∧ b[i]? = some y ∧ lt x y = true) := by
  intro a
  induction a with
  | nil => intro b; simp [domFlags]
  | cons x xs ih =>
    intro b
    cases b with
    | nil => simp [domFlags]
    | cons y ys =>
      have hs : ∀ (R : α → α → Prop), (∃ (i : Nat) (u v : α), (x :: xs)[i]? = some u ∧ (y :: ys)[i]? = some v ∧ R u v) ↔
          (R x y ∨ ∃ (i : Nat) (u v : α), xs[i]? = some u ∧ ys[i]? = some v ∧ R u v) := by
        intro R
        constructor
        · rintro ⟨i, u, v, h1, h2, h3⟩
          cases i with
          | zero => simp only [List.getElem?_cons_zero, Option.some.injEq] at h1 h2; subst h1 h2; exact Or.inl h3
          | succ i => exact Or.inr ⟨i, u, v, by simpa using h1, by simpa using h2, h3⟩
        · rintro (h | ⟨i, u, v, h1, h2, h3⟩)
          · exact ⟨0, x, y, rfl, rfl, h⟩
          · exact ⟨i + 1, u, v, by simpa using h1, by simpa using h2, h3⟩
      rw [hs (fun u v => lt v u = true), hs (fun u v => lt u v = true), ← (ih ys).1, ← (ih ys).2]
      simp only [domFlags]
      by_cases h1 : lt y x = true
      · rw [if_pos h1, domFlags_eq xs ys true false]
        have h2 : lt x y = false := by
          cases h : lt x y with
          | false => rfl
          | true => exact absurd (lt_asymm' h1) (by simp [h])
        simp [h1, h2]
      · rw [if_neg h1]
        by_cases h2 : lt x y = true
        · rw [if_pos h2, domFlags_eq xs ys false true]; simp [h1, h2]
        · rw [if_neg h2]; simp [h1, h2]

theorem dominate_iff {d : Nat} {a b : List α} (ha : GoodObjs d a) (hb : GoodObjs d b) : dominate a b = true ↔ Dominates a b := by
  obtain ⟨h1, h2⟩ := domFlags_spec a b
  have e : dominate a b = ((domFlags a b false false).1 && !(domFlags a b false false).2) := by
    unfold dominate dominateFlag
    generalize domFlags a b false false = q
    obtain ⟨x, y⟩ := q
    cases x <;> cases y <;> rfl
  rw [e, Bool.and_eq_true, h1, Bool.not_eq_true', ← Bool.not_eq_true, h2]
  unfold Dominates
  constructor
  · rintro ⟨h, h'⟩
    refine ⟨fun i x y hx hy => ?_, h⟩
    have hx' := ha.2 x (List.mem_of_getElem? hx)
    have hy' := hb.2 y (List.mem_of_getElem? hy)
    apply le_of_not_lt hx' hy'
    rw [← Bool.not_eq_true]
    intro hc
    exact h' ⟨i, x, y, hx, hy, hc⟩
  · rintro ⟨h, h'⟩
    refine ⟨h', ?_⟩
    rintro ⟨i, x, y, hx, hy, hc⟩
    have hx' := ha.2 x (List.mem_of_getElem? hx)
    have hy' := hb.2 y (List.mem_of_getElem? hy)
    rw [(not_lt_iff_le hx' hy').2 (h i x y hx hy)] at hc
    simp at hc

theorem nonDominated_iff (obj : P → List α) (o : List α) (xs : List P) :
    nonDominated obj o xs = true ↔ ∀ y ∈ xs, dominate (obj y) o = false := by
  induction xs with
  | nil => simp [nonDominated]
  | cons x xs ih =>
    simp only [nonDominated]
    cases h : dominate (obj x) o <;> simp [ih, h]

theorem Dominates.irrefl (a : List α) : ¬ Dominates a a := by
  rintro ⟨-, i, x, y, hx, hy, h⟩
  rw [hx] at hy
  simp only [Option.some.injEq] at hy
  subst hy
  rw [lt_irrefl'] at h; simp at h

theorem getElem?_some_of_len {a b : List α} (h : a.length = b.length) {i : Nat} {x : α} (hx : a[i]? = some x) : ∃ y, b[i]? = some y := by
  have : i < a.length := by
    rcases Nat.lt_or_ge i a.length with h | h
    · exact h
    · rw [List.getElem?_eq_none h] at hx; simp at hx
  exact ⟨b[i]'(h ▸ this), List.getElem?_eq_getElem _⟩

theorem Dominates.trans {a b c : List α} (hab : a.length = b.length) (hbc : b.length = c.length) (h1 : Dominates a b) (h2 : Dominates b c) :
    Dominates a c := by
  constructor
  · intro i x z hx hz
    obtain ⟨y, hy⟩ := getElem?_some_of_len hab hx
    exact le_trans _ _ _ (h2.1 i y z hy hz) (h1.1 i x y hx hy)
  · obtain ⟨i, x, y, hx, hy, hlt⟩ := h1.2
    obtain ⟨z, hz⟩ := getElem?_some_of_len hbc hy
    exact ⟨i, x, z, hx, hz, lt_of_le_of_lt (h2.1 i y z hy hz) hlt⟩

/-- every element has a maximal element above it -/
theorem exists_maximal_above (p : List P) (R : P → P → Prop) (hirr : ∀ x, ¬ R x x)
    (htr : ∀ x ∈ p, ∀ y ∈ p, ∀ z ∈ p, R x y → R y z → R x z) :
    ∀ x ∈ p, ∃ y ∈ p, (y = x ∨ R y x) ∧ ∀ z ∈ p, ¬ R z y := by
  classical
  have key : ∀ n, ∀ x ∈ p, (p.filter (fun y => decide (R y x))).length ≤ n → ∃ y ∈ p, (y = x ∨ R y x) ∧ ∀ z ∈ p, ¬ R z y := by
    intro n
    induction n with
    | zero =>
      intro x hx hl
      refine ⟨x, hx, Or.inl rfl, fun z hz hr => ?_⟩
      have : z ∈ p.filter (fun y => decide (R y x)) := by simp [hz, hr]
      rw [List.length_eq_zero_iff.1 (Nat.le_zero.1 hl)] at this
      simp at this
    | succ n ih =>
      intro x hx hl
      by_cases hex : ∃ y ∈ p, R y x
      · obtain ⟨y, hy, hyx⟩ := hex
        have hsub : (p.filter (fun z => decide (R z y))).Sublist (p.filter (fun z => decide (R z x))) := by
          have : p.filter (fun z => decide (R z y)) = (p.filter (fun z => decide (R z x))).filter (fun z => decide (R z y)) := by
            rw [List.filter_filter]
            apply List.filter_congr
            intro z hz
            by_cases h : R z y
            · simp [h, htr z hz y hy x hx h hyx]
            · simp [h]
          rw [this]
          exact List.filter_sublist
        have hlt : (p.filter (fun z => decide (R z y))).length < (p.filter (fun z => decide (R z x))).length := by
          rcases Nat.lt_or_ge (p.filter (fun z => decide (R z y))).length (p.filter (fun z => decide (R z x))).length with h | h
          · exact h
          · have e := hsub.eq_of_length (Nat.le_antisymm hsub.length_le h)
            have : y ∈ p.filter (fun z => decide (R z x)) := by simp [hy, hyx]
            rw [← e] at this
            simp only [List.mem_filter, decide_eq_true_eq] at this
            exact absurd this.2 (hirr y)
        obtain ⟨w, hw, hwy, hmax⟩ := ih y hy (by omega)
        refine ⟨w, hw, Or.inr ?_, hmax⟩
        rcases hwy with rfl | h
        · exact hyx
        · exact htr w hw y hy x hx h hyx
      · exact ⟨x, hx, Or.inl rfl, fun z hz hr => hex ⟨z, hz, hr⟩⟩
  intro x hx
  exact key _ x hx (Nat.le_refl _)

/-! ## the lexicographic order -/

theorem lexBefore_iff {d : Nat} : ∀ {a b : List α}, GoodObjs d a → GoodObjs d b → (lexBefore a b = true ↔ LexGreater a b) := by
  induction d with
  | zero =>
    intro a b ha hb
    obtain rfl := List.length_eq_zero_iff.1 ha.1
    obtain rfl := List.length_eq_zero_iff.1 hb.1
    simp [lexBefore, LexGreater]
  | succ d ih =>
    intro a b ha hb
    match a, b, ha, hb with
    | x :: xs, y :: ys, ha, hb =>
      have hxs : GoodObjs d xs := ⟨by simpa using ha.1, fun z hz => ha.2 z (by simp [hz])⟩
      have hys : GoodObjs d ys := ⟨by simpa using hb.1, fun z hz => hb.2 z (by simp [hz])⟩
      have hx := ha.2 x (by simp)
      have hy := hb.2 y (by simp)
      simp only [lexBefore]
      by_cases h1 : lt y x = true
      · rw [if_pos h1]
        simp only [true_iff]
        exact ⟨0, x, y, rfl, rfl, h1, by intro j u v hj; omega⟩
      · rw [if_neg h1]
        by_cases h2 : lt x y = true
        · rw [if_pos h2]
          simp only [Bool.false_eq_true, false_iff]
          rintro ⟨i, u, v, hu, hv, hlt, hpre⟩
          cases i with
          | zero => simp only [List.getElem?_cons_zero, Option.some.injEq] at hu hv; subst hu hv; exact h1 hlt
          | succ i =>
            obtain ⟨-, h⟩ := hpre 0 x y (by omega) rfl rfl
            rw [(not_lt_iff_le hx hy).2 h] at h2; simp at h2
        · rw [if_neg h2, ih hxs hys]
          constructor
          · rintro ⟨i, u, v, hu, hv, hlt, hpre⟩
            refine ⟨i + 1, u, v, by simpa using hu, by simpa using hv, hlt, ?_⟩
            intro j u v hj hu hv
            cases j with
            | zero =>
              simp only [List.getElem?_cons_zero, Option.some.injEq] at hu hv
              subst hu hv
              exact ⟨le_of_not_lt hy hx (by simpa using h1), le_of_not_lt hx hy (by simpa using h2)⟩
            | succ j => exact hpre j u v (by omega) (by simpa using hu) (by simpa using hv)
          · rintro ⟨i, u, v, hu, hv, hlt, hpre⟩
            cases i with
            | zero => simp only [List.getElem?_cons_zero, Option.some.injEq] at hu hv; subst hu hv; exact absurd hlt h1
            | succ i =>
              refine ⟨i, u, v, by simpa using hu, by simpa using hv, hlt, ?_⟩
              intro j u v hj hu hv
              exact hpre (j + 1) u v (by omega) (by simpa using hu) (by simpa using hv)

theorem lexBefore_irrefl (a : List α) : lexBefore a a = false := by
  induction a with
  | nil => rfl
  | cons x xs ih => simp [lexBefore, lt_irrefl', ih]

/-- "not before" is transitive -/
theorem lexBefore_negTrans {d : Nat} : ∀ {a b c : List α}, GoodObjs d a → GoodObjs d b → GoodObjs d c →
    lexBefore a b = false → lexBefore b c = false → lexBefore a c = false := by
  induction d with
  | zero =>
    intro a b c ha hb hc _ _
    obtain rfl := List.length_eq_zero_iff.1 ha.1
    simp [lexBefore]
  | succ d ih =>
    intro a b c ha hb hc h1 h2
    match a, b, c, ha, hb, hc with
    | x :: xs, y :: ys, z :: zs, ha, hb, hc =>
      have hxs : GoodObjs d xs := ⟨by simpa using ha.1, fun w hw => ha.2 w (by simp [hw])⟩
      have hys : GoodObjs d ys := ⟨by simpa using hb.1, fun w hw => hb.2 w (by simp [hw])⟩
      have hzs : GoodObjs d zs := ⟨by simpa using hc.1, fun w hw => hc.2 w (by simp [hw])⟩
      have hx := ha.2 x (by simp)
      have hy := hb.2 y (by simp)
      have hz := hc.2 z (by simp)
      simp only [lexBefore] at h1 h2 ⊢
      by_cases a1 : lt y x = true
      · rw [if_pos a1] at h1; simp at h1
      by_cases a2 : lt z y = true
      · rw [if_pos a2] at h2; simp at h2
      rw [if_neg a1] at h1
      rw [if_neg a2] at h2
      have l1 : le x y = true := le_of_not_lt hy hx (by simpa using a1)
      have l2 : le y z = true := le_of_not_lt hz hy (by simpa using a2)
      have l3 := le_trans _ _ _ l1 l2
      rw [if_neg (by rw [(not_lt_iff_le hz hx).2 l3]; simp)]
      by_cases b1 : lt x y = true
      · rw [if_pos (lt_of_lt_of_le b1 l2)]
      · rw [if_neg b1] at h1
        by_cases b2 : lt y z = true
        · rw [if_pos (lt_of_le_of_lt l1 b2)]
        · rw [if_neg b2] at h2
          have l4 := le_of_not_lt hx hy (by simpa using b1)
          have l5 := le_of_not_lt hy hz (by simpa using b2)
          rw [if_neg (by rw [(not_lt_iff_le hx hz).2 (le_trans _ _ _ l5 l4)]; simp)]
          exact ih hxs hys hzs h1 h2

theorem lexBefore_asymm {d : Nat} {a b : List α} (ha : GoodObjs d a) (hb : GoodObjs d b) (h : lexBefore a b = true) : lexBefore b a = false := by
  obtain ⟨i, x, y, hx, hy, hlt, hpre⟩ := (lexBefore_iff ha hb).1 h
  rw [← Bool.not_eq_true, lexBefore_iff hb ha]
  rintro ⟨j, u, v, hu, hv, hlt', hpre'⟩
  rcases Nat.lt_trichotomy i j with hij | hij | hij
  · obtain ⟨h1, -⟩ := hpre' i y x hij hy hx
    rw [← not_lt_iff_le (ha.2 x (List.mem_of_getElem? hx)) (hb.2 y (List.mem_of_getElem? hy))] at h1
    obtain ⟨-, h2⟩ := hpre' i y x hij hy hx
    rw [(not_lt_iff_le (hb.2 y (List.mem_of_getElem? hy)) (ha.2 x (List.mem_of_getElem? hx))).2 h2] at hlt
    simp at hlt
  · subst hij
    rw [hy] at hu; rw [hx] at hv
    simp only [Option.some.injEq] at hu hv
    subst hu hv
    rw [lt_asymm' hlt] at hlt'; simp at hlt'
  · obtain ⟨-, h1⟩ := hpre j v u hij hv hu
    rw [(not_lt_iff_le (ha.2 v (List.mem_of_getElem? hv)) (hb.2 u (List.mem_of_getElem? hu))).2 h1] at hlt'
    simp at hlt'

theorem lexTies_same {d : Nat} : ∀ {a b : List α}, GoodObjs d a → GoodObjs d b → lexBefore a b = false → lexBefore b a = false → SameObjs a b := by
  induction d with
  | zero =>
    intro a b ha hb _ _
    obtain rfl := List.length_eq_zero_iff.1 ha.1
    obtain rfl := List.length_eq_zero_iff.1 hb.1
    exact ⟨rfl, by simp⟩
  | succ d ih =>
    intro a b ha hb h1 h2
    match a, b, ha, hb with
    | x :: xs, y :: ys, ha, hb =>
      have hxs : GoodObjs d xs := ⟨by simpa using ha.1, fun z hz => ha.2 z (by simp [hz])⟩
      have hys : GoodObjs d ys := ⟨by simpa using hb.1, fun z hz => hb.2 z (by simp [hz])⟩
      have hx := ha.2 x (by simp)
      have hy := hb.2 y (by simp)
      simp only [lexBefore] at h1 h2
      by_cases a1 : lt y x = true
      · rw [if_pos a1] at h1; simp at h1
      by_cases a2 : lt x y = true
      · rw [if_pos a2] at h2; simp at h2
      rw [if_neg a1, if_neg a2] at h1
      rw [if_neg a2, if_neg a1] at h2
      obtain ⟨hl, hs⟩ := ih hxs hys h1 h2
      refine ⟨by simpa using hl, ?_⟩
      intro i u v hu hv
      cases i with
      | zero =>
        simp only [List.getElem?_cons_zero, Option.some.injEq] at hu hv
        subst hu hv
        exact ⟨le_of_not_lt hx hy (by simpa using a2), le_of_not_lt hy hx (by simpa using a1)⟩
      | succ i => exact hs i u v (by simpa using hu) (by simpa using hv)

/-! ## the parallel loop -/

theorem paretoBody_eq (obj : P → List α) (p : List P) : paretoBody obj p =
    fun i => ((match p[i]? with | some x => if nonDominated obj (obj x) p then [[x]] else [] | none => []) : List (List P)).map
      (fun xs s => s ++ xs) := by
  funext i
  unfold paretoBody
  cases p[i]? with
  | none => rfl
  | some x => simp only; split <;> rfl

theorem serial_pareto (obj : P → List α) (p : List P) : ∀ (n begin : Nat) (s : List P), begin + n = p.length →
    serialLoop (paretoBody obj p) begin n s = s ++ (p.drop begin).filter (fun x => nonDominated obj (obj x) p) := by
  intro n
  induction n with
  | zero => intro begin s h; simp [serialLoop, List.drop_eq_nil_of_le (show p.length ≤ begin by omega)]
  | succ n ih =>
    intro begin s h
    have hb : begin < p.length := by omega
    simp only [serialLoop]
    rw [ih (begin + 1) _ (by omega), List.drop_eq_getElem_cons hb, List.filter_cons]
    simp only [paretoBody, List.getElem?_eq_getElem hb]
    by_cases hn : nonDominated obj (obj p[begin]) p = true
    · simp only [hn, if_true, runActions, List.append_assoc, List.cons_append, List.nil_append]
    · simp only [hn, Bool.false_eq_true, if_false, runActions]

/-! ## lower_bound -/

theorem lowerBound_spec (comp : Nat → Bool) : ∀ (len first : Nat),
    (∀ i j, first ≤ i → i < j → j < first + len → comp j = true → comp i = true) →
    first ≤ lowerBound comp first len ∧ lowerBound comp first len ≤ first + len ∧
    (∀ i, first ≤ i → i < lowerBound comp first len → comp i = true) ∧
    (∀ i, lowerBound comp first len ≤ i → i < first + len → comp i = false) := by
  intro len
  induction len using Nat.strongRecOn with
  | _ len ih =>
    intro first hp
    unfold lowerBound
    by_cases h0 : len = 0
    · rw [if_pos h0]; subst h0; refine ⟨Nat.le_refl _, by omega, by intros; omega, by intros; omega⟩
    · rw [if_neg h0]
      simp only
      by_cases hc : comp (first + len / 2) = true
      · rw [if_pos hc]
        obtain ⟨h1, h2, h3, h4⟩ := ih (len - len / 2 - 1) (by omega) (first + len / 2 + 1)
          (fun i j hi hij hj => hp i j (by omega) hij (by omega))
        refine ⟨by omega, by omega, ?_, ?_⟩
        · intro i hi hlt
          by_cases hle : i < first + len / 2
          · exact hp i _ hi hle (by omega) hc
          · by_cases he : i = first + len / 2
            · rw [he]; exact hc
            · exact h3 i (by omega) hlt
        · intro i hi hlt; exact h4 i hi (by omega)
      · rw [if_neg hc]
        obtain ⟨h1, h2, h3, h4⟩ := ih (len / 2) (by omega) first (fun i j hi hij hj => hp i j hi hij (by omega))
        refine ⟨h1, by omega, h3, ?_⟩
        intro i hi hlt
        by_cases hle : i < first + len / 2
        · exact h4 i hi hle
        · by_cases he : i = first + len / 2
          · rw [he]; simpa using hc
          · cases hci : comp i with
            | false => rfl
            | true => exact absurd (hp _ i (by omega) (by omega) hlt hci) hc

/-! ## sort_2objs -/

theorem good2 {o : List α} (h : GoodObjs 2 o) : ∃ a b, o = [a, b] ∧ isNaN a = false ∧ isNaN b = false := by
  match o, h with
  | [a, b], h => exact ⟨a, b, rfl, h.2 a (by simp), h.2 b (by simp)⟩

/-- second objective -/
def sec (obj : P → List α) (x : P) : α := (obj x).getD 1 (lit 0)

theorem sec_eq {obj : P → List α} {x : P} (h : GoodObjs 2 (obj x)) : (obj x)[1]? = some (sec obj x) ∧ isNaN (sec obj x) = false := by
  obtain ⟨a, b, e, -, hb⟩ := good2 h
  simp [sec, e, hb]

/-- elements whose second objective exceeds that of all earlier elements -/
def records (obj : P → List α) : List P → List P → List P
  | _, [] => []
  | seen, x :: xs =>
    if seen.all (fun y => lt (sec obj y) (sec obj x)) then x :: records obj (seen ++ [x]) xs else records obj (seen ++ [x]) xs

theorem records_snoc (obj : P → List α) (x : P) : ∀ (l seen : List P), records obj seen (l ++ [x]) =
    records obj seen l ++ if (seen ++ l).all (fun y => lt (sec obj y) (sec obj x)) then [x] else [] := by
  intro l
  induction l with
  | nil => intro seen; simp only [List.nil_append, records, List.append_nil]
  | cons y ys ih =>
    intro seen
    simp only [List.cons_append, records]
    rw [ih (seen ++ [y])]
    have : seen ++ [y] ++ ys = seen ++ y :: ys := by simp
    rw [this]
    split <;> simp

structure Sort2Inv (obj : P → List α) (pre : List P) (f : List (List P)) : Prop where
  sub : ∀ fr ∈ f, ∀ x ∈ fr, x ∈ pre
  ne : ∀ fr ∈ f, fr ≠ []
  dec : ∀ (i j : Nat) fi fj a b, i < j → f[i]? = some fi → f[j]? = some fj → fi.getLast? = some a → fj.getLast? = some b →
    lt (sec obj b) (sec obj a) = true
  head : f.head? = some (records obj [] pre)
  max : ∃ m, (records obj [] pre).getLast? = some m ∧ ∀ y ∈ pre, le (sec obj y) (sec obj m) = true

theorem sort2Inv_init (obj : P → List α) (x : P) (h : GoodObjs 2 (obj x)) : Sort2Inv obj [x] [[x]] := by
  refine ⟨by simp, by simp, ?_, by simp [records], ⟨x, by simp [records], ?_⟩⟩
  · intro i j fi fj a b hij hi hj
    have : j = 0 := by
      cases j with
      | zero => rfl
      | succ j => simp at hj
    omega
  · intro y hy
    simp only [List.mem_singleton] at hy
    subst hy
    exact le_refl' _ (sec_eq h).2

theorem getLast?_of_ne {l : List P} (h : l ≠ []) : ∃ a, l.getLast? = some a ∧ a ∈ l :=
  ⟨l.getLast h, List.getLast?_eq_getLast_of_ne_nil h, List.getLast_mem h⟩

theorem sort2Step_spec (obj : P → List α) (pre : List P) (f : List (List P)) (x : P) (hI : Sort2Inv obj pre f)
    (hx : GoodObjs 2 (obj x)) (hpre : ∀ y ∈ pre, GoodObjs 2 (obj y))
    (hties : ∀ y ∈ pre, lt (sec obj y) (sec obj x) = true ∨ lt (sec obj x) (sec obj y) = true) :
    ∃ f', sort2Step obj f x = some f' ∧ Sort2Inv obj (pre ++ [x]) f' := by
  obtain ⟨hx2, hxn⟩ := sec_eq hx
  have hback : ∀ fr ∈ f, ∃ a, fr.getLast? = some a ∧ a ∈ pre ∧ backSecond obj fr = some (sec obj a) := by
    intro fr hfr
    obtain ⟨a, ha, hm⟩ := getLast?_of_ne (hI.ne fr hfr)
    have hp := hI.sub fr hfr a hm
    exact ⟨a, ha, hp, by simp [backSecond, ha, (sec_eq (hpre a hp)).1]⟩
  have hfne : f ≠ [] := by
    intro h; have := hI.head; rw [h] at this; simp at this
  obtain ⟨h0, t0, rfl⟩ : ∃ h0 t0, f = h0 :: t0 := by
    cases f with
    | nil => exact absurd rfl hfne
    | cons a b => exact ⟨a, b, rfl⟩
  set f := h0 :: t0 with hfdef
  have hh0 : h0 = records obj [] pre := by have := hI.head; simpa [hfdef] using this
  obtain ⟨m, hm, hmax⟩ := hI.max
  have hmp : m ∈ pre := hI.sub h0 (by simp [hfdef]) m (by rw [hh0]; exact List.mem_of_getLast? hm)
  -- the last front
  obtain ⟨lf, hlf⟩ : ∃ lf, f.getLast? = some lf := ⟨_, List.getLast?_eq_getLast_of_ne_nil hfne⟩
  have hlfm : lf ∈ f := List.mem_of_getLast? hlf
  obtain ⟨la, hla, hlap, hlb⟩ := hback lf hlfm
  have hlfi : f[f.length - 1]? = some lf := by rw [← List.getLast?_eq_getElem?]; exact hlf
  have hrec : records obj [] (pre ++ [x]) = records obj [] pre ++ if lt (sec obj m) (sec obj x) then [x] else [] := by
    rw [records_snoc, List.nil_append]
    congr 1
    by_cases h : lt (sec obj m) (sec obj x) = true
    · rw [if_pos h, if_pos]
      rw [List.all_eq_true]
      intro y hy
      exact lt_of_le_of_lt (hmax y hy) h
    · rw [if_neg h, if_neg]
      rw [List.all_eq_true]
      intro hc; exact h (hc m hmp)
  have hmaxx : ∃ m', (records obj [] (pre ++ [x])).getLast? = some m' ∧ ∀ y ∈ pre ++ [x], le (sec obj y) (sec obj m') = true := by
    rw [hrec]
    by_cases h : lt (sec obj m) (sec obj x) = true
    · refine ⟨x, by simp [h], ?_⟩
      intro y hy
      rcases List.mem_append.1 hy with hy | hy
      · exact le_of_lt (lt_of_le_of_lt (hmax y hy) h)
      · simp only [List.mem_singleton] at hy; subst hy; exact le_refl' _ hxn
    · refine ⟨m, by simp [h, hm], ?_⟩
      intro y hy
      rcases List.mem_append.1 hy with hy | hy
      · exact hmax y hy
      · simp only [List.mem_singleton] at hy; subst hy
        rcases hties m hmp with h' | h'
        · exact absurd h' h
        · exact le_of_lt h'
  unfold sort2Step
  simp only [hx2, hlf, Option.bind_some, hlb]
  by_cases hcase : lt (sec obj la) (sec obj x) = true
  · rw [if_pos hcase]
    have hcomp : ∀ i fr a, f[i]? = some fr → fr.getLast? = some a → compFronts obj f (sec obj x) i = lt (sec obj x) (sec obj a) := by
      intro i fr a hi ha
      obtain ⟨a', ha', -, hb⟩ := hback fr (List.mem_of_getElem? hi)
      rw [ha] at ha'
      simp only [Option.some.injEq] at ha'
      subst ha'
      simp [compFronts, hi, hb]
    have hget : ∀ i, i < f.length → ∃ fr a, f[i]? = some fr ∧ fr.getLast? = some a ∧ a ∈ pre := by
      intro i hi
      obtain ⟨a, ha, hp, -⟩ := hback f[i] (List.getElem_mem hi)
      exact ⟨f[i], a, List.getElem?_eq_getElem hi, ha, hp⟩
    obtain ⟨-, hb2, hb3, hb4⟩ := lowerBound_spec (compFronts obj f (sec obj x)) f.length 0 (by
      intro i j _ hij hj hc
      obtain ⟨fi, a, hi, ha, -⟩ := hget i (by omega)
      obtain ⟨fj, b, hj, hb, -⟩ := hget j (by omega)
      rw [hcomp j fj b hj hb] at hc
      rw [hcomp i fi a hi ha]
      exact lt_trans' hc (hI.dec i j fi fj a b hij hi hj ha hb))
    set b := lowerBound (compFronts obj f (sec obj x)) 0 f.length with hb
    have hlen : 0 < f.length := List.length_pos_iff.2 hfne
    have hbl : b ≠ f.length := by
      intro he
      have := hb3 (f.length - 1) (by omega) (by omega)
      rw [hcomp _ lf la hlfi hla, lt_asymm' hcase] at this
      simp at this
    simp only [hbl, if_false]
    refine ⟨_, rfl, ?_⟩
    have hge : ∀ i, (f.modify b (· ++ [x]))[i]? = if i = b then (f[i]?).map (· ++ [x]) else f[i]? := by
      intro i
      rw [List.getElem?_modify]
      by_cases h : b = i
      · subst h; simp
      · have h' : ¬ i = b := fun e => h e.symm
        simp [h, h']
    refine ⟨?_, ?_, ?_, ?_, hmaxx⟩
    · intro fr hfr y hy
      obtain ⟨i, hi⟩ := List.getElem?_of_mem hfr
      rw [hge i] at hi
      split at hi
      · rw [Option.map_eq_some_iff] at hi
        obtain ⟨fr0, h1, rfl⟩ := hi
        rcases List.mem_append.1 hy with hy | hy
        · exact List.mem_append_left _ (hI.sub fr0 (List.mem_of_getElem? h1) y hy)
        · exact List.mem_append_right _ hy
      · exact List.mem_append_left _ (hI.sub fr (List.mem_of_getElem? hi) y hy)
    · intro fr hfr
      obtain ⟨i, hi⟩ := List.getElem?_of_mem hfr
      rw [hge i] at hi
      split at hi
      · rw [Option.map_eq_some_iff] at hi
        obtain ⟨fr0, h1, rfl⟩ := hi
        simp
      · exact hI.ne fr (List.mem_of_getElem? hi)
    · intro i j fi fj a c hij hi hj ha hc
      rw [hge i] at hi
      rw [hge j] at hj
      by_cases e1 : i = b
      · rw [if_pos e1] at hi
        rw [if_neg (by omega)] at hj
        rw [Option.map_eq_some_iff] at hi
        obtain ⟨fr0, h1, rfl⟩ := hi
        simp only [List.getLast?_append, List.getLast?_singleton, Option.some_or, Option.some.injEq] at ha
        subst ha
        have hjl : j < f.length := by
          rcases Nat.lt_or_ge j f.length with h | h
          · exact h
          · rw [List.getElem?_eq_none h] at hj; simp at hj
        have hcf := hb4 j (by omega) (by omega)
        rw [hcomp j fj c hj hc] at hcf
        have hcp : c ∈ pre := hI.sub fj (List.mem_of_getElem? hj) c (List.mem_of_getLast? hc)
        rcases hties c hcp with h | h
        · exact h
        · rw [h] at hcf; simp at hcf
      · rw [if_neg e1] at hi
        by_cases e2 : j = b
        · rw [if_pos e2] at hj
          rw [Option.map_eq_some_iff] at hj
          obtain ⟨fr0, h1, rfl⟩ := hj
          simp only [List.getLast?_append, List.getLast?_singleton, Option.some_or, Option.some.injEq] at hc
          subst hc
          have hcf := hb3 i (by omega) (by omega)
          rw [hcomp i fi a hi ha] at hcf
          exact hcf
        · rw [if_neg e2] at hj
          exact hI.dec i j fi fj a c hij hi hj ha hc
    · rw [List.head?_eq_getElem?, hge 0, hrec]
      have h00 : f[0]? = some h0 := rfl
      have hc0 : compFronts obj f (sec obj x) 0 = lt (sec obj x) (sec obj m) := hcomp 0 h0 m h00 (by rw [hh0]; exact hm)
      by_cases e : (0 : Nat) = b
      · rw [if_pos e, h00]
        have := hb4 0 (by omega) (by omega)
        rw [hc0] at this
        have hlt : lt (sec obj m) (sec obj x) = true := by
          rcases hties m hmp with h | h
          · exact h
          · rw [h] at this; simp at this
        simp [hlt, hh0]
      · rw [if_neg e, h00]
        have := hb3 0 (by omega) (by omega)
        rw [hc0] at this
        simp [lt_asymm' this, hh0]
  · rw [if_neg hcase]
    have hlx : lt (sec obj x) (sec obj la) = true := by
      rcases hties la hlap with h | h
      · exact absurd h hcase
      · exact h
    refine ⟨_, rfl, ?_, ?_, ?_, ?_, hmaxx⟩
    · intro fr hfr y hy
      rcases List.mem_append.1 hfr with h | h
      · exact List.mem_append_left _ (hI.sub fr h y hy)
      · simp only [List.mem_singleton] at h; subst h; exact List.mem_append_right _ hy
    · intro fr hfr
      rcases List.mem_append.1 hfr with h | h
      · exact hI.ne fr h
      · simp only [List.mem_singleton] at h; subst h; simp
    · intro i j fi fj a c hij hi hj ha hc
      by_cases hjl : j < f.length
      · rw [List.getElem?_append_left hjl] at hj
        rw [List.getElem?_append_left (by omega)] at hi
        exact hI.dec i j fi fj a c hij hi hj ha hc
      · rw [List.getElem?_append_right (by omega)] at hj
        have hj0 : j - f.length = 0 := by
          cases h : j - f.length with
          | zero => rfl
          | succ n => rw [h] at hj; simp at hj
        rw [hj0] at hj
        simp only [List.getElem?_cons_zero, Option.some.injEq] at hj
        subst hj
        simp only [List.getLast?_singleton, Option.some.injEq] at hc
        subst hc
        rw [List.getElem?_append_left (by omega)] at hi
        by_cases hil : i = f.length - 1
        · rw [hil, hlfi] at hi
          simp only [Option.some.injEq] at hi
          subst hi
          rw [hla] at ha
          simp only [Option.some.injEq] at ha
          subst ha
          exact hlx
        · exact lt_trans' hlx (hI.dec i (f.length - 1) fi lf a la (by omega) hi hlfi ha hla)
    · rw [hrec]
      have hlm : le (sec obj la) (sec obj m) = true := hmax la hlap
      have : lt (sec obj m) (sec obj x) = false := lt_asymm' (lt_of_lt_of_le hlx hlm)
      simp [hfdef, this, hh0]

theorem sort2Loop_spec (obj : P → List α) : ∀ (xs pre : List P) (f : List (List P)),
    (∀ x ∈ pre ++ xs, GoodObjs 2 (obj x)) →
    (pre ++ xs).Pairwise (fun x y => ∀ a b, (obj x)[1]? = some a → (obj y)[1]? = some b → lt a b = true ∨ lt b a = true) →
    Sort2Inv obj pre f → ∃ f', sort2Loop obj xs f = some f' ∧ Sort2Inv obj (pre ++ xs) f' := by
  intro xs
  induction xs with
  | nil => intro pre f _ _ h; exact ⟨f, rfl, by simpa using h⟩
  | cons x xs ih =>
    intro pre f hg ht hI
    have hgx := hg x (by simp)
    obtain ⟨f1, h1, hI1⟩ := sort2Step_spec obj pre f x hI hgx (fun y hy => hg y (by simp [hy])) (by
      intro y hy
      rw [List.pairwise_append] at ht
      exact ht.2.2 y hy x (by simp) _ _ (sec_eq (hg y (by simp [hy]))).1 (sec_eq hgx).1)
    have e : pre ++ x :: xs = pre ++ [x] ++ xs := by simp
    rw [e] at hg ht ⊢
    obtain ⟨f2, h2, hI2⟩ := ih (pre ++ [x]) f1 hg ht hI1
    exact ⟨f2, by simp [sort2Loop, h1, h2], hI2⟩

open Classical in
theorem records_eq (obj : P → List α) (sorted : List P) (hgood : ∀ x ∈ sorted, GoodObjs 2 (obj x))
    (hsort : sorted.Pairwise (fun x y => lexBefore (obj y) (obj x) = false))
    (hties : sorted.Pairwise fun x y => ∀ a b, (obj x)[1]? = some a → (obj y)[1]? = some b → lt a b = true ∨ lt b a = true) :
    records obj [] sorted = sorted.filter fun x => decide (∀ y ∈ sorted, ¬ Dominates (obj y) (obj x)) := by
  have key : ∀ (xs seen : List P), sorted = seen ++ xs →
      records obj seen xs = xs.filter fun x => decide (∀ y ∈ sorted, ¬ Dominates (obj y) (obj x)) := by
    intro xs
    induction xs with
    | nil => intro seen _; rfl
    | cons x xs ih =>
      intro seen hs
      rw [List.filter_cons, records, ih (seen ++ [x]) (by simp [hs])]
      have hiff : (seen.all (fun y => lt (sec obj y) (sec obj x)) = true) ↔ (∀ y ∈ sorted, ¬ Dominates (obj y) (obj x)) := by
        have hgx := hgood x (by rw [hs]; simp)
        obtain ⟨x1, x2, ex, hx1, hx2⟩ := good2 hgx
        have hsx : sec obj x = x2 := by simp [sec, ex]
        rw [hs, List.pairwise_append] at hsort hties
        rw [List.all_eq_true]
        constructor
        · intro h y hy hd
          rw [hs] at hy
          have hgy := hgood y (by rw [hs]; exact hy)
          obtain ⟨y1, y2, ey, hy1, hy2⟩ := good2 hgy
          have hsy : sec obj y = y2 := by simp [sec, ey]
          rw [ex, ey] at hd
          rcases List.mem_append.1 hy with hy | hy
          · have h1 := h y hy
            rw [hsx, hsy] at h1
            have h2 := hd.1 1 y2 x2 rfl rfl
            rw [(not_lt_iff_le hy2 hx2).2 h2] at h1
            simp at h1
          · rcases List.mem_cons.1 hy with rfl | hy
            · rw [ex] at ey
              simp only [List.cons.injEq, and_true] at ey
              rw [← ey.1, ← ey.2] at hd
              exact Dominates.irrefl _ hd
            · have h1 := (List.pairwise_cons.1 hsort.2.1).1 y hy
              have : lexBefore (obj y) (obj x) = true := by
                rw [lexBefore_iff hgy hgx, ex, ey]
                by_cases hlt : lt x1 y1 = true
                · exact ⟨0, y1, x1, rfl, rfl, hlt, by intro j u v hj; omega⟩
                · have hle := le_of_not_lt hx1 hy1 (by simpa using hlt)
                  have hge := hd.1 0 y1 x1 rfl rfl
                  refine ⟨1, y2, x2, rfl, rfl, ?_, ?_⟩
                  · obtain ⟨i, u, v, hu, hv, huv⟩ := hd.2
                    match i with
                    | 0 => simp only [List.getElem?_cons_zero, Option.some.injEq] at hu hv; subst hu hv; exact absurd huv hlt
                    | 1 => simp only [List.getElem?_cons_succ, List.getElem?_cons_zero, Option.some.injEq] at hu hv; subst hu hv; exact huv
                    | n + 2 => simp at hu
                  · intro j u v hj hu hv
                    obtain rfl : j = 0 := by omega
                    simp only [List.getElem?_cons_zero, Option.some.injEq] at hu hv
                    subst hu hv
                    exact ⟨hle, hge⟩
              rw [h1] at this; simp at this
        · intro h y hy
          have hgy := hgood y (by rw [hs]; simp [hy])
          obtain ⟨y1, y2, ey, hy1, hy2⟩ := good2 hgy
          have hsy : sec obj y = y2 := by simp [sec, ey]
          rw [hsx, hsy]
          rcases hties.2.2 y hy x (by simp) y2 x2 (by simp [ey]) (by simp [ex]) with h' | h'
          · exact h'
          · exfalso
            apply h y (by rw [hs]; simp [hy])
            have h1 := hsort.2.2 y hy x (by simp)
            have hle : le x1 y1 = true := by
              apply le_of_not_lt hy1 hx1
              rw [← Bool.not_eq_true]
              intro hc
              have : lexBefore (obj x) (obj y) = true := by
                rw [lexBefore_iff hgx hgy, ex, ey]
                exact ⟨0, x1, y1, rfl, rfl, hc, by intro j u v hj; omega⟩
              rw [h1] at this; simp at this
            rw [ex, ey]
            refine ⟨?_, 1, y2, x2, rfl, rfl, h'⟩
            intro i u v hu hv
            match i with
            | 0 => simp only [List.getElem?_cons_zero, Option.some.injEq] at hu hv; subst hu hv; exact hle
            | 1 => simp only [List.getElem?_cons_succ, List.getElem?_cons_zero, Option.some.injEq] at hu hv; subst hu hv; exact le_of_lt h'
            | n + 2 => simp at hu
      by_cases hc : ∀ y ∈ sorted, ¬ Dominates (obj y) (obj x)
      · rw [if_pos (hiff.2 hc), if_pos (by simpa using hc)]
      · rw [if_neg (fun h => hc (hiff.1 h)), if_neg (by simpa using hc)]
  exact key sorted [] rfl

end Limbo
