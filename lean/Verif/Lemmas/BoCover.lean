import Verif.Lemmas.BoHonest

/-! Helpers for C109: decisions counted by a property of the point decided upon. -/

namespace Limbo

variable {α M : Type} [Scalar α]

open Classical in
/-- the call number `n + 1` with the property -/
theorem callPts_split (Q : List α → Prop) : ∀ (tr : List (Event α M)) (n : Nat), n + 1 ≤ (callPts tr).countP (fun x => decide (Q x)) →
    ∃ p x r q, tr = p ++ .call x r :: q ∧ Q x ∧ n ≤ (callPts p).countP (fun x => decide (Q x)) := by
  intro tr
  induction tr with
  | nil => intro n h; simp [callPts] at h
  | cons e es ih =>
    intro n h
    cases e with
    | call y r =>
      simp only [callPts, List.countP_cons] at h
      by_cases hy : Q y
      · rw [if_pos (decide_eq_true hy)] at h
        cases n with
        | zero => exact ⟨[], y, r, es, rfl, hy, Nat.zero_le _⟩
        | succ n =>
          obtain ⟨p, x, r', q, h1, h2, h3⟩ := ih n (by omega)
          refine ⟨.call y r :: p, x, r', q, by rw [h1]; rfl, h2, ?_⟩
          simp only [callPts, List.countP_cons]
          rw [if_pos (decide_eq_true hy)]
          omega
      · rw [if_neg (by simpa using hy)] at h
        obtain ⟨p, x, r', q, h1, h2, h3⟩ := ih n h
        refine ⟨.call y r :: p, x, r', q, by rw [h1]; rfl, h2, ?_⟩
        simp only [callPts, List.countP_cons]
        omega
    | start r => obtain ⟨p, x, r', q, h1, h2, h3⟩ := ih n h; exact ⟨.start r :: p, x, r', q, by rw [h1]; rfl, h2, h3⟩
    | given s v => obtain ⟨p, x, r', q, h1, h2, h3⟩ := ih n h; exact ⟨.given s v :: p, x, r', q, by rw [h1]; rfl, h2, h3⟩
    | asked k a => obtain ⟨p, x, r', q, h1, h2, h3⟩ := ih n h; exact ⟨.asked k a :: p, x, r', q, by rw [h1]; rfl, h2, h3⟩
    | acqui g it => obtain ⟨p, x, r', q, h1, h2, h3⟩ := ih n h; exact ⟨.acqui g it :: p, x, r', q, by rw [h1]; rfl, h2, h3⟩
    | stat g => obtain ⟨p, x, r', q, h1, h2, h3⟩ := ih n h; exact ⟨.stat g :: p, x, r', q, by rw [h1]; rfl, h2, h3⟩
    | hp g => obtain ⟨p, x, r', q, h1, h2, h3⟩ := ih n h; exact ⟨.hp g :: p, x, r', q, by rw [h1]; rfl, h2, h3⟩

/-- every call comes right after an acquisition event -/
def Decided (seg : List (Event α M)) : Prop := ∀ p x r q, seg = p ++ .call x r :: q → ∃ p' g it, p = p' ++ [.acqui g it]

theorem Decided.append {l l' : List (Event α M)} (h : Decided l) (h' : Decided l') : Decided (l ++ l') := by
  intro p x r q he
  rcases List.append_eq_append_iff.1 he with ⟨a, h1, h2⟩ | ⟨c, h1, h2⟩
  · obtain ⟨p', g, it, rfl⟩ := h' a x r q h2
    exact ⟨l ++ p', g, it, by rw [h1]; simp⟩
  · cases c with
    | nil =>
      simp only [List.nil_append] at h2
      obtain ⟨p', g, it, hh⟩ := h' [] x r q h2.symm
      simp at hh
    | cons e es =>
      simp only [List.cons_append, List.cons.injEq] at h2
      obtain ⟨rfl, -⟩ := h2
      exact h p x r es h1

theorem Decided.of_no_calls {l : List (Event α M)} (h : callPts l = []) : Decided l := by
  rintro p x r q rfl
  rw [callPts_append] at h
  simp [callPts] at h

theorem Loops.decided {P : BoParams α M} {f : StateFun α M} {afun : List α → α} {n : Nat} {st st' : BoState α M}
    (h : Loops P f afun n st st') : ∃ seg, st'.trace = st.trace ++ seg ∧ Decided seg := by
  induction h with
  | done hs =>
    obtain ⟨as, rfl, has⟩ := boStop_spec hs
    exact ⟨as, rfl, .of_no_calls (asked_nothing has).1⟩
  | @step n st s1 s2 st' hs hi hl ih =>
    obtain ⟨as, rfl, has⟩ := boStop_spec hs
    obtain ⟨x, v, m1, m2, logs, -, hfin, -, -, -, rfl⟩ := boIteration_ok hi
    obtain ⟨seg, h1, h2⟩ := ih
    refine ⟨as ++ ([.acqui st.model st.currentIteration, .call x (.ret v)] ++ (.stat st.model ::
      (if hpDue P st.currentIteration then [.hp m1] else []) ++ seg)), by rw [h1]; simp, ?_⟩
    refine (Decided.of_no_calls (asked_nothing has).1).append (Decided.append ?_ (Decided.append ?_ h2))
    · intro p y r q he
      match p, he with
      | [], he => simp at he
      | [e], he => simp at he; exact ⟨[], _, _, by rw [← he.1]; rfl⟩
      | e :: e' :: p, he => simp at he
    · refine .of_no_calls ?_
      split <;> simp [callPts]

open Classical in
/-- calls with the property and with finite results are stored -/
theorem countP_expectFrom (Q : List α → Prop) : ∀ {p : List (Event α M)} {acc : List (List α × List α)}, Event.start true ∉ p →
    (∀ x r, Q x → Event.call x r ∈ p → ∃ v, r = .ret v ∧ v.all (fun y => isFinite y) = true) →
    (acc.map Prod.fst).countP (fun x => decide (Q x)) + (callPts p).countP (fun x => decide (Q x)) ≤
      ((expectFrom acc p).map Prod.fst).countP (fun x => decide (Q x)) := by
  intro p
  induction p with
  | nil => intro acc _ _; simp [callPts, expectFrom]
  | cons e es ih =>
    intro acc h1 h2
    have ih' := ih (acc := expectStep acc e) (fun h => h1 (by simp [h])) (fun x r hx h => h2 x r hx (by simp [h]))
    refine le_trans ?_ ih'
    have hmono : ∀ l : List (List α × List α), ∀ q, (l.map Prod.fst).countP (fun x => decide (Q x)) ≤
        ((l ++ [q]).map Prod.fst).countP (fun x => decide (Q x)) := by
      intro l q; simp
    cases e with
    | start r =>
      cases r with
      | true => simp at h1
      | false => simp [expectStep, callPts]
    | call y r =>
      simp only [callPts, List.countP_cons]
      by_cases hy : Q y
      · obtain ⟨v, rfl, hv⟩ := h2 y r hy (by simp)
        simp only [expectStep, hv, if_true, List.map_append, List.countP_append, List.map_cons, List.map_nil, List.countP_cons, List.countP_nil]
        omega
      · rw [if_neg (by simpa using hy), add_zero]
        refine Nat.add_le_add_right ?_ _
        cases r with
        | ret v => simp only [expectStep]; split; exacts [hmono _ _, le_rfl]
        | threw => exact le_rfl
    | given s v =>
      simp only [callPts]
      refine Nat.add_le_add_right ?_ _
      simp only [expectStep]; split; exacts [hmono _ _, le_rfl]
    | asked k a => simp [expectStep, callPts]
    | acqui g it => simp [expectStep, callPts]
    | stat g => simp [expectStep, callPts]
    | hp g => simp [expectStep, callPts]

open Classical in
/-- pigeonhole -/
theorem exists_cell {β : Type} {m : Nat} (l : List β) (cell : β → Fin m) (n : Nat) (hn : n * m < l.length) :
    ∃ c, n + 1 ≤ l.countP (fun x => decide (cell x = c)) := by
  obtain ⟨c, -, hc⟩ := exists_count_of_length (l.map cell) Finset.univ (fun _ _ => Finset.mem_univ _) n (by simpa using hn)
  refine ⟨c, hc.trans (le_of_eq ?_)⟩
  unfold List.count
  rw [List.countP_map]
  refine List.countP_congr fun x _ => ?_
  show @decide (cell x = c) (Classical.propDecidable _) = true ↔ _
  simp

end Limbo
