import Verif.Model.Par
import Verif.Spec.Par
import Mathlib.Data.List.Perm.Basic
import Mathlib.Data.List.Sort

namespace Limbo

/-! ### par::max -/

/-- What is needed of `comp` on "good" elements (e.g. pairs whose value is not NaN). -/
structure MaxOk {T : Type} (comp : T → T → Bool) (G : T → Prop) : Prop where
  good : ∀ v c, comp v c = true → G c → G v
  irrefl : ∀ a, comp a a = false
  asymm : ∀ a b, comp a b = true → comp b a = false
  negTrans : ∀ a b c, G b → comp a b = false → comp b c = false → comp a c = false

variable {T : Type} {f : Nat → T} {comp : T → T → Bool} {G : T → Prop}

theorem maxChunk_spec (h : MaxOk comp G) : ∀ n start acc, G acc →
    G (maxChunk f comp start n acc) ∧
    (maxChunk f comp start n acc = acc ∨ ∃ i, start ≤ i ∧ i < start + n ∧ maxChunk f comp start n acc = f i) ∧
    comp acc (maxChunk f comp start n acc) = false ∧
    (∀ i, start ≤ i → i < start + n → comp (f i) (maxChunk f comp start n acc) = false)
  | 0, start, acc, hg => ⟨hg, Or.inl rfl, h.irrefl _, fun i h1 h2 => by omega⟩
  | n + 1, start, acc, hg => by
    simp only [maxChunk]
    set acc' := if comp (f start) acc then f start else acc with hacc
    have hg' : G acc' := by
      rw [hacc]; split_ifs with hc
      · exact h.good _ _ hc hg
      · exact hg
    have hle : comp acc acc' = false ∧ comp (f start) acc' = false := by
      rw [hacc]; split_ifs with hc
      · exact ⟨h.asymm _ _ hc, h.irrefl _⟩
      · exact ⟨h.irrefl _, by simpa using hc⟩
    obtain ⟨i1, i2, i3, i4⟩ := maxChunk_spec h n (start + 1) acc' hg'
    refine ⟨i1, ?_, h.negTrans _ _ _ hg' hle.1 i3, ?_⟩
    · rcases i2 with i2 | ⟨i, a, b, c⟩
      · rw [i2, hacc]; split_ifs
        · exact Or.inr ⟨start, by omega, by omega, rfl⟩
        · exact Or.inl rfl
      · exact Or.inr ⟨i, by omega, by omega, c⟩
    · intro i a b
      rcases Nat.lt_or_ge start i with hlt | hge
      · exact i4 i (by omega) (by omega)
      · have : i = start := by omega
        subst this
        exact h.negTrans _ _ _ hg' hle.2 i3

theorem parMaxFrom_spec (h : MaxOk comp G) (init : T) (hinit : G init) : ∀ (s : Sched) (start : Nat) (acc : T), G acc →
    G (parMaxFrom init f comp s start acc) ∧
    (parMaxFrom init f comp s start acc = acc ∨ parMaxFrom init f comp s start acc = init ∨
      ∃ i, start ≤ i ∧ i < start + s.size ∧ parMaxFrom init f comp s start acc = f i) ∧
    comp acc (parMaxFrom init f comp s start acc) = false ∧
    (∀ i, start ≤ i → i < start + s.size → comp (f i) (parMaxFrom init f comp s start acc) = false) := by
  intro s
  induction s with
  | chunk n =>
    intro start acc hg
    obtain ⟨a, b, c, d⟩ := maxChunk_spec (f := f) h n start acc hg
    exact ⟨a, b.elim Or.inl (fun x => Or.inr (Or.inr x)), c, d⟩
  | seq a b iha ihb =>
    intro start acc hg
    simp only [parMaxFrom, Sched.size]
    obtain ⟨a1, a2, a3, a4⟩ := iha start acc hg
    obtain ⟨b1, b2, b3, b4⟩ := ihb (start + a.size) _ a1
    refine ⟨b1, ?_, h.negTrans _ _ _ a1 a3 b3, ?_⟩
    · rcases b2 with b2 | b2 | ⟨i, x, y, z⟩
      · rw [b2]
        rcases a2 with a2 | a2 | ⟨i, x, y, z⟩
        · exact Or.inl a2
        · exact Or.inr (Or.inl a2)
        · exact Or.inr (Or.inr ⟨i, x, by omega, z⟩)
      · exact Or.inr (Or.inl b2)
      · exact Or.inr (Or.inr ⟨i, by omega, by omega, z⟩)
    · intro i x y
      rcases Nat.lt_or_ge i (start + a.size) with hlt | hge
      · exact h.negTrans _ _ _ a1 (a4 i x hlt) b3
      · exact b4 i hge (by omega)
  | fork a b iha ihb =>
    intro start acc hg
    simp only [parMaxFrom, Sched.size]
    obtain ⟨a1, a2, a3, a4⟩ := iha start acc hg
    obtain ⟨b1, b2, b3, b4⟩ := ihb (start + a.size) init hinit
    have key : ∀ x : T, (comp x (parMaxFrom init f comp a start acc) = false ∨
        comp x (parMaxFrom init f comp b (start + a.size) init) = false) →
        comp x (maxJoin comp (parMaxFrom init f comp a start acc)
          (parMaxFrom init f comp b (start + a.size) init)) = false := by
      intro x hx
      unfold maxJoin
      split_ifs with hc
      · rcases hx with hx | hx
        · exact hx
        · exact h.negTrans _ _ _ b1 hx (h.asymm _ _ hc)
      · rcases hx with hx | hx
        · exact h.negTrans _ _ _ a1 hx (by simpa using hc)
        · exact hx
    refine ⟨?_, ?_, key _ (Or.inl a3), ?_⟩
    · unfold maxJoin; split_ifs <;> assumption
    · unfold maxJoin; split_ifs
      · rcases a2 with a2 | a2 | ⟨i, x, y, z⟩
        · exact Or.inl a2
        · exact Or.inr (Or.inl a2)
        · exact Or.inr (Or.inr ⟨i, x, by omega, z⟩)
      · rcases b2 with b2 | b2 | ⟨i, x, y, z⟩
        · exact Or.inr (Or.inl b2)
        · exact Or.inr (Or.inl b2)
        · exact Or.inr (Or.inr ⟨i, by omega, by omega, z⟩)
    · intro i x y
      rcases Nat.lt_or_ge i (start + a.size) with hlt | hge
      · exact key _ (Or.inl (a4 i x hlt))
      · exact key _ (Or.inr (b4 i hge (by omega)))

/-! ### interleavings -/

variable {σ : Type}

theorem runActions_append (l1 l2 : List (σ → σ)) (s : σ) :
    runActions (l1 ++ l2) s = runActions l2 (runActions l1 s) := by
  induction l1 generalizing s with
  | nil => rfl
  | cons a l ih => simp [runActions, ih]

theorem runActions_swap (a : σ → σ) (l : List (σ → σ)) (h : ∀ b ∈ l, ∀ s, a (b s) = b (a s)) (s : σ) :
    runActions l (a s) = a (runActions l s) := by
  induction l generalizing s with
  | nil => rfl
  | cons b l ih =>
    simp only [runActions]
    rw [← h b (by simp), ih (fun c hc => h c (by simp [hc]))]

theorem runTagged_filter (p : Nat × (σ → σ) → Bool) (out : List (Nat × (σ → σ)))
    (h : ∀ x ∈ out, ∀ y ∈ out, p x = false → p y = true → ∀ s, x.2 (y.2 s) = y.2 (x.2 s)) (s : σ) :
    runTagged out s = runTagged (out.filter (fun x => !p x)) (runTagged (out.filter p) s) := by
  induction out generalizing s with
  | nil => rfl
  | cons x out ih =>
    have ih' := fun s => ih (fun x hx y hy => h x (by simp [hx]) y (by simp [hy])) s
    cases hp : p x with
    | true =>
      simp only [List.filter_cons, hp, if_true, Bool.not_true, Bool.false_eq_true, if_false]
      show runTagged out (x.2 s) = runTagged _ (runTagged (out.filter p) (x.2 s))
      exact ih' _
    | false =>
      simp only [List.filter_cons, hp, Bool.not_false, if_true, Bool.false_eq_true, if_false]
      show runTagged out (x.2 s) = runTagged (out.filter (fun x => !p x)) (x.2 (runTagged (out.filter p) s))
      rw [ih']
      congr 1
      refine runActions_swap _ _ ?_ _
      intro b hb
      rw [List.mem_map] at hb
      obtain ⟨y, hy, rfl⟩ := hb
      rw [List.mem_filter] at hy
      exact h x (by simp) y (by simp [hy.1]) hp hy.2

theorem interleaving_eq_serial (body : Nat → List (σ → σ)) : ∀ n begin out, IsInterleaving body begin n out →
    (∀ i j, i ≠ j → begin ≤ i → i < begin + n → begin ≤ j → j < begin + n →
      ∀ a ∈ body i, ∀ b ∈ body j, ∀ s, a (b s) = b (a s)) →
    ∀ s, runTagged out s = serialLoop body begin n s
  | 0, begin, out, h, hc, s => by
    cases out with
    | nil => rfl
    | cons x out => have := h.2 x (by simp); omega
  | n + 1, begin, out, h, hc, s => by
    have hmem : ∀ x ∈ out, x.2 ∈ body x.1 := by
      intro x hx
      rw [← h.1 x.1 (h.2 x hx).1 (h.2 x hx).2, List.mem_map]
      exact ⟨x, by simp [hx], rfl⟩
    rw [runTagged_filter (fun p => p.1 == begin)]
    · simp only [serialLoop]
      have e : runTagged (out.filter (fun p => p.1 == begin)) s = runActions (body begin) s := by
        unfold runTagged; rw [h.1 begin (by omega) (by omega)]
      rw [e]
      apply interleaving_eq_serial body n (begin + 1)
      · refine ⟨?_, ?_⟩
        · intro i h1 h2
          rw [List.filter_filter, ← h.1 i (by omega) (by omega)]
          congr 1
          apply List.filter_congr
          intro x hx
          rw [Bool.eq_iff_iff]
          simp only [Bool.and_eq_true, beq_iff_eq, Bool.not_eq_true', beq_eq_false_iff_ne]
          constructor
          · intro hh; exact hh.1
          · intro hh; exact ⟨hh, by omega⟩
        · intro x hx
          rw [List.mem_filter] at hx
          have := h.2 x hx.1
          simp only [Bool.not_eq_true', beq_eq_false_iff_ne] at hx
          omega
      · intro i j hij h1 h2 h3 h4
        exact hc i j hij (by omega) (by omega) (by omega) (by omega)
    · intro x hx y hy hpx hpy s
      simp only [beq_eq_false_iff_ne, beq_iff_eq] at hpx hpy
      exact hc x.1 y.1 (by omega) (h.2 x hx).1 (h.2 x hx).2 (h.2 y hy).1 (h.2 y hy).2 _ (hmem x hx) _ (hmem y hy) s

/-- All actions of the serial loop in order. -/
def serialActions (body : Nat → List (σ → σ)) (begin : Nat) : Nat → List (σ → σ)
  | 0 => []
  | n + 1 => body begin ++ serialActions body (begin + 1) n

theorem serialLoop_eq (body : Nat → List (σ → σ)) : ∀ n begin s,
    serialLoop body begin n s = runActions (serialActions body begin n) s
  | 0, _, _ => rfl
  | n + 1, begin, s => by simp [serialLoop, serialActions, runActions_append, serialLoop_eq body n]

theorem interleaving_perm (body : Nat → List (σ → σ)) : ∀ n begin out, IsInterleaving body begin n out →
    (out.map Prod.snd).Perm (serialActions body begin n)
  | 0, begin, out, h => by
    cases out with
    | nil => exact List.Perm.refl _
    | cons x out => have := h.2 x (by simp); omega
  | n + 1, begin, out, h => by
    have hp : (out.filter (fun p => p.1 == begin) ++ out.filter (fun p => !(p.1 == begin))).Perm out :=
      List.filter_append_perm _ _
    refine (hp.map Prod.snd).symm.trans ?_
    rw [List.map_append, h.1 begin (by omega) (by omega)]
    simp only [serialActions]
    apply List.Perm.append_left
    apply interleaving_perm body n (begin + 1)
    refine ⟨?_, ?_⟩
    · intro i h1 h2
      rw [List.filter_filter, ← h.1 i (by omega) (by omega)]
      congr 1
      apply List.filter_congr
      intro x hx
      rw [Bool.eq_iff_iff]
      simp only [Bool.and_eq_true, beq_iff_eq, Bool.not_eq_true', beq_eq_false_iff_ne]
      constructor
      · intro hh; exact hh.1
      · intro hh; exact ⟨hh, by omega⟩
    · intro x hx
      rw [List.mem_filter] at hx
      have := h.2 x hx.1
      simp only [Bool.not_eq_true', beq_eq_false_iff_ne] at hx
      omega

theorem footprint_commute {Loc V : Type} {a b : (Loc → V) → (Loc → V)} {Ra Wa Rb Wb : Set Loc}
    (ha : Footprint a Ra Wa) (hb : Footprint b Rb Wb)
    (h1 : ∀ l ∈ Wa, l ∉ Rb ∧ l ∉ Wb) (h2 : ∀ l ∈ Wb, l ∉ Ra ∧ l ∉ Wa) (m : Loc → V) : a (b m) = b (a m) := by
  funext l
  by_cases hla : l ∈ Wa
  · rw [hb.frame (a m) l (h1 l hla).2]
    refine ha.reads _ _ ?_ l hla
    intro l' hl'
    exact hb.frame m l' (fun hw => (h2 l' hw).1 hl')
  · rw [ha.frame (b m) l hla]
    by_cases hlb : l ∈ Wb
    · refine hb.reads _ _ ?_ l hlb
      intro l' hl'
      exact (ha.frame m l' (fun hw => (h1 l' hw).1 hl')).symm
    · rw [hb.frame m l hlb, hb.frame (a m) l hlb, ha.frame m l hla]

end Limbo
