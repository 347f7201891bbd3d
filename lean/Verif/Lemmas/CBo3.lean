import Verif.Lemmas.CBo2
import Verif.Lemmas.Bo2

/-! Stopping criteria and hyper-parameter optimizations of `CBOptimizer`. -/

namespace Limbo

set_option linter.unusedSectionVars false

variable {α M C : Type} [Scalar α]

theorem cbTouch_base {P : CBoParams α M C} {b : Bool} {st st' : CBoState α M C} (h : cbTouch P b st = some st') : st'.base = st.base := by
  unfold cbTouch at h
  split at h
  · exact (cbLook_same h).2
  · simp only [Option.some.injEq] at h
    rw [h]

theorem cbChain_true (P : CBoParams α M C) (afun : List α → α) : ∀ (cs : List (CCriterion α M C)) (k : Nat) (st : CBoState α M C),
    cbChain P afun cs k true st = some (true, st)
  | [], _, _ => rfl
  | c :: cs, k, st => by
    simp only [cbChain, if_true]
    exact cbChain_true P afun cs (k + 1) st

/-- the answers: some refusals, and a final approval iff the loop is to stop -/
theorem cbChain_asked (P : CBoParams α M C) (afun : List α → α) : ∀ (cs : List (CCriterion α M C)) (k : Nat) (b : Bool) (st st' : CBoState α M C),
    cbChain P afun cs k false st = some (b, st') →
    ∃ m, st'.base.trace = st.base.trace ++ (List.range m).map (fun i => .asked (k + i) false) ++ (if b then [.asked (k + m) true] else []) ∧
      (b = true → m < cs.length) ∧ (b = false → m = cs.length)
  | [], k, b, st, st', h => by
    simp only [cbChain, Option.some.injEq, Prod.mk.injEq] at h
    obtain ⟨rfl, rfl⟩ := h
    exact ⟨0, by simp, by simp, by simp⟩
  | c :: cs, k, b, st, st', h => by
    simp only [cbChain, Bool.false_eq_true, if_false] at h
    split at h
    · simp at h
    · next ans looked hc =>
      split at h
      · simp at h
      · next s1 hs1 =>
        have hb := cbTouch_base hs1
        cases ans with
        | true =>
          rw [cbChain_true] at h
          simp only [Option.some.injEq, Prod.mk.injEq] at h
          obtain ⟨rfl, rfl⟩ := h
          exact ⟨0, by simp [BoState.push, hb], by simp, by simp⟩
        | false =>
          obtain ⟨m, h1, h2, h3⟩ := cbChain_asked P afun cs (k + 1) b _ st' h
          refine ⟨m + 1, ?_, fun hb' => by simpa using h2 hb', fun hb' => by simpa using h3 hb'⟩
          rw [h1, List.range_succ_eq_map]
          simp only [BoState.push, hb, List.map_cons, List.map_map, Function.comp_def, Nat.add_zero, List.append_assoc, List.cons_append,
            List.nil_append, List.append_cancel_left_eq, List.cons.injEq, true_and]
          have e : ∀ i, k + 1 + i = k + i.succ := fun i => by omega
          simp only [e]

/-- is the hyper-parameter optimization due in iteration number `it` (counted from 0)? -/
abbrev cbHpDue (P : CBoParams α M C) (it : Int) : Prop := 0 < P.hpPeriod ∧ (it + 1).tmod P.hpPeriod = 0

theorem cbHp_full {P : CBoParams α M C} {st st' : CBoState α M C} (h : cbHp P st = .ok st') :
    st'.base.trace = st.base.trace ++ (if cbHpDue P st.base.currentIteration then [.hp st.base.model] else []) ∧
    st'.base.currentIteration = st.base.currentIteration ∧ st'.base.totalIterations = st.base.totalIterations ∧
    (cbHpDue P st.base.currentIteration → P.ops.optHp st.base.model = .ok st'.base.model ∧
      (0 < st.nb → P.cops.optHp st.cmodel = .ok st'.cmodel)) ∧
    (¬ cbHpDue P st.base.currentIteration → st' = st) := by
  unfold cbHp at h
  by_cases hd : cbHpDue P st.base.currentIteration
  · rw [if_pos hd] at h
    simp only at h
    obtain ⟨s1, h1, h2⟩ := Res.andThen_ok h
    obtain ⟨b, hb, rfl⟩ := cbBase_ok h1
    obtain ⟨m, hm, rfl⟩ := withModel_ok hb
    rw [if_pos hd]
    refine ⟨?_, ?_, ?_, fun _ => ⟨?_, ?_⟩, fun h => absurd hd h⟩
    all_goals
      split at h2
      · next hnb =>
        obtain ⟨c, hc, rfl⟩ := cbCmodel_ok h2
        first | rfl | exact hm | exact fun _ => hc
      · next hnb =>
        simp only [Res.ok.injEq] at h2
        subst h2
        first | rfl | exact hm | exact fun h => absurd h hnb
  · rw [if_neg hd, Res.ok.injEq] at h
    subst h
    rw [if_neg hd]
    exact ⟨by simp, rfl, rfl, fun h => absurd h hd, fun _ => rfl⟩

theorem cbIteration_trace {P : CBoParams α M C} {f : StateFun α M} {afun : List α → α} {st st' : CBoState α M C}
    (h : cbIteration P f afun st = .ok st') :
    ∃ x v m1 c1, st'.base.trace = st.base.trace ++ ([.acqui st.base.model st.base.currentIteration, .call x (.ret v), .stat st.base.model] ++
        (if cbHpDue P st.base.currentIteration then [.hp m1] else [])) ∧
      st'.base.currentIteration = st.base.currentIteration + 1 ∧ st'.nb = st.nb ∧
      (∃ o, P.ops.addSample x o st.base.model = .ok m1) ∧ (0 < st.nb → ∃ w, P.cops.addSample x w st.cmodel = .ok c1) ∧
      (cbHpDue P st.base.currentIteration → P.ops.optHp m1 = .ok st'.base.model ∧ (0 < st.nb → P.cops.optHp c1 = .ok st'.cmodel)) ∧
      (¬ cbHpDue P st.base.currentIteration → st'.base.model = m1 ∧ st'.cmodel = c1) := by
  unfold cbIteration at h
  simp only at h
  split at h
  · simp at h
  · simp at h
  · next x hx =>
    obtain ⟨t1, h1, ha⟩ := Res.andThen_ok h
    obtain ⟨t2, h2, hb'⟩ := Res.andThen_ok ha
    obtain ⟨t3, h3, hc'⟩ := Res.andThen_ok hb'
    obtain ⟨t4, h4, hd'⟩ := Res.andThen_ok hc'
    obtain ⟨b, hb, rfl⟩ := cbBase_ok h1
    obtain ⟨v, -, hfin, rfl⟩ := evalAndAdd_ok hb
    unfold cbUpdateStats at h2
    split at h2
    · simp at h2
    · next s2 hs2 =>
      simp only [Res.ok.injEq] at h2
      subst h2
      obtain ⟨⟨hsame, hbase⟩, -, -⟩ := cbStats_same P afun _ _ _ hs2
      obtain ⟨x', o, m, c, hx', ho, hm, hc, rfl⟩ := cbModelAdd_ok h3
      obtain ⟨e1, e2, e3, e4, e5⟩ := cbHp_full h4
      cases hd'
      have ex : x' = x := by
        rw [hsame.samples] at hx'
        simpa [BoState.push] using hx'.symm
      subst ex
      have hcur : s2.base.currentIteration = st.base.currentIteration := by rw [hbase]; rfl
      have hmod : s2.base.model = st.base.model := by rw [hsame.model]; rfl
      have hnb : s2.nb = st.nb := hsame.nb
      have hcm : s2.cmodel = st.cmodel := hsame.cmodel
      simp only at e1 e2 e4 e5
      rw [hcur] at e1 e2 e4 e5
      rw [hmod] at hm
      rw [hnb, hcm] at hc
      rw [hnb] at e4
      refine ⟨x', v, m, c, ?_, ?_, ?_, ⟨o, hm⟩, ?_, e4, ?_⟩
      · simp only
        rw [e1, hbase]
        simp [BoState.push]
      · simp only
        rw [e2]
      · by_cases hd : cbHpDue P st.base.currentIteration
        · obtain ⟨m2, c2, tr, rfl, -⟩ := cbHp_ok h4
          exact hnb
        · rw [e5 hd]
          exact hnb
      · intro h
        rw [if_pos h] at hc
        obtain ⟨w, -, hw⟩ := hc
        exact ⟨w, hw⟩
      · intro hd
        rw [e5 hd]
        exact ⟨rfl, rfl⟩

/-- the events of a complete loop -/
theorem cbLoop_trace {P : CBoParams α M C} {f : StateFun α M} {afun : List α → α} : ∀ {fuel : Nat} {st st' : CBoState α M C},
    cbLoop P f afun fuel st = .ok st' →
    ∃ (n : Nat) (seg : List (Event α M)), st'.base.trace = st.base.trace ++ seg ∧ st'.base.currentIteration = st.base.currentIteration + n ∧
      acquiCount seg = n ∧
      (∀ c : Nat, st.base.currentIteration = c →
        hpMarks c seg = ((List.range n).map fun k => c + k + 1).filter fun k : Nat => decide (cbHpDue P ((k : Int) - 1))) ∧
      (∃ j, seg.getLast? = some (.asked j true)) ∧
      (∀ pre mo it post, seg = pre ++ .acqui mo it :: post → (List.range P.stop.length).map (fun i => .asked i false) <:+ pre) ∧
      (∀ j a post pre, seg = pre ++ .asked j a :: post → a = true → post = []) := by
  intro fuel
  induction fuel with
  | zero => intro st st' h; simp [cbLoop] at h
  | succ fuel ih =>
    intro st st' h
    simp only [cbLoop] at h
    split at h
    · simp at h
    · next s1 hs1 =>
      simp only [Res.ok.injEq] at h
      subst h
      obtain ⟨m, e1, -, -⟩ := cbChain_asked P afun _ _ _ _ _ hs1
      obtain ⟨-, ⟨as, hb, has⟩, -⟩ := cbChain_same P afun _ _ _ _ _ _ hs1
      have eas : as = (List.range m).map (fun i => .asked (0 + i) false) ++ [.asked (0 + m) true] := by
        rw [hb] at e1
        simpa [List.append_assoc] using e1
      obtain ⟨a1, a2, a3, a4⟩ := asked_nothing has
      refine ⟨0, as, by rw [hb], by rw [hb]; simp, a3, fun c _ => by simp [a4], ⟨_, by rw [eas]; simp; rfl⟩, ?_, ?_⟩
      · intro pre mo it post e
        exfalso
        obtain ⟨j, a, hja⟩ := has (.acqui mo it) (by rw [e]; simp)
        simp at hja
      · intro j a post pre e ha
        subst ha
        by_contra hne
        rw [eas] at e
        obtain ⟨q, z, rfl⟩ : ∃ q z, post = q ++ [z] := ⟨post.dropLast, post.getLast hne, (List.dropLast_append_getLast hne).symm⟩
        have e' : (List.range m).map (fun i => (.asked (0 + i) false : Event α M)) = pre ++ .asked j true :: q := by
          have := congrArg List.dropLast e
          rw [List.dropLast_concat, ← List.cons_append, ← List.append_assoc, List.dropLast_concat] at this
          exact this
        have hmem : (.asked j true : Event α M) ∈ (List.range m).map (fun i => (.asked (0 + i) false : Event α M)) := by rw [e']; simp
        simp at hmem
    · next s1 hs1 =>
      obtain ⟨m, e1, -, em⟩ := cbChain_asked P afun _ _ _ _ _ hs1
      have em := em rfl
      subst em
      obtain ⟨-, ⟨as, hb, has⟩, -⟩ := cbChain_same P afun _ _ _ _ _ _ hs1
      have eas : as = (List.range P.stop.length).map (fun i => .asked i false) := by
        rw [hb] at e1
        simpa [List.append_assoc] using e1
      obtain ⟨a1, a2, a3, a4⟩ := asked_nothing has
      obtain ⟨s3, h3, h4⟩ := Res.andThen_ok h
      obtain ⟨x, v, m1, c1, et, ec, -, -, -, -, -⟩ := cbIteration_trace h3
      obtain ⟨n, seg, i1, i2, i3, i4, i5, i6, i7⟩ := ih h4
      have hcur : s1.base.currentIteration = st.base.currentIteration := by rw [hb]
      rw [hcur] at et ec
      have hmid : ∃ mid : List (Event α M), s3.base.trace = st.base.trace ++ (as ++ (.acqui s1.base.model st.base.currentIteration :: mid)) ∧
          (∀ e ∈ mid, (∃ y w, e = .call y w) ∨ (∃ w, e = .stat w) ∨ (∃ w, e = .hp w)) ∧ acquiCount mid = 0 ∧
          ∀ c, hpMarks c mid = if cbHpDue P st.base.currentIteration then [c] else [] := by
        refine ⟨[.call x (.ret v), .stat s1.base.model] ++ (if cbHpDue P st.base.currentIteration then [.hp m1] else []), ?_, ?_, ?_, ?_⟩
        · rw [et, hb]; simp
        · intro e he
          rcases List.mem_append.mp he with he | he
          · simp at he
            rcases he with rfl | rfl
            · exact Or.inl ⟨_, _, rfl⟩
            · exact Or.inr (Or.inl ⟨_, rfl⟩)
          · split at he
            · simp at he
              exact Or.inr (Or.inr ⟨_, he⟩)
            · simp at he
        · split <;> simp [acquiCount]
        · intro c
          split <;> simp [hpMarks]
      obtain ⟨mid, hm1, hm2, hm3, hm4⟩ := hmid
      refine ⟨n + 1, (as ++ (.acqui s1.base.model st.base.currentIteration :: mid)) ++ seg, by rw [i1, hm1]; simp, by rw [i2, ec]; push_cast; ring,
        ?_, ?_, ?_, ?_, ?_⟩
      · rw [acquiCount_append, acquiCount_append, a3, i3]
        simp [acquiCount, hm3]
        omega
      · intro c hc
        rw [hpMarks_append, hpMarks_append, a4, acquiCount_append, a3]
        have h2 := i4 (c + 1) (by rw [ec, hc]; push_cast; rfl)
        rw [List.range_succ_eq_map]
        simp only [List.map_cons, List.map_map, Nat.add_zero, List.filter_cons, Function.comp_def]
        have hshift : (List.map (fun k => c + k.succ + 1) (List.range n)) = (List.range n).map fun k => c + 1 + k + 1 := by
          apply List.map_congr_left; intro k _; omega
        rw [hshift, ← h2]
        have e2 : (((c + 1 : Nat) : Int) - 1) = st.base.currentIteration := by rw [hc]; push_cast; omega
        rw [e2]
        simp only [hpMarks, acquiCount, hm3, hm4, List.nil_append, Nat.zero_add]
        by_cases hd : cbHpDue P st.base.currentIteration
        · rw [if_pos hd, if_pos (decide_eq_true hd)]
          simp
        · rw [if_neg hd, if_neg (by rw [decide_eq_true_eq]; exact hd)]
          simp
      · obtain ⟨j, hj⟩ := i5
        exact ⟨j, by rw [List.getLast?_append, hj]; rfl⟩
      · intro pre mo it post e
        rcases List.append_eq_append_iff.mp e with ⟨w, e1, e2⟩ | ⟨w, e1, e2⟩
        · -- the event is in `seg`
          have := i6 w mo it post e2
          rw [e1]
          exact this.trans (List.suffix_append _ _)
        · cases w with
          | nil =>
            simp only [List.append_nil, List.nil_append] at e1 e2
            have := i6 [] mo it post (by simp [e2])
            rw [List.suffix_nil] at this
            rw [this]
            exact List.nil_suffix
          | cons w0 w =>
            simp only [List.cons_append, List.cons.injEq] at e2
            obtain ⟨rfl, -⟩ := e2
            rcases List.append_eq_append_iff.mp e1 with ⟨u, e3, e4⟩ | ⟨u, e3, e4⟩
            · cases u with
              | nil =>
                rw [List.append_nil] at e3
                rw [e3, eas]
              | cons u0 u =>
                exfalso
                simp only [List.cons_append, List.cons.injEq] at e4
                have := hm2 (.acqui mo it) (by rw [e4.2]; simp)
                rcases this with ⟨_, _, h⟩ | ⟨_, h⟩ | ⟨_, h⟩ <;> simp at h
            · cases u with
              | nil =>
                rw [List.append_nil] at e3
                rw [← e3, eas]
              | cons u0 u =>
                exfalso
                simp only [List.cons_append, List.cons.injEq] at e4
                obtain ⟨j, a, hja⟩ := has (.acqui mo it) (by rw [e3, e4.1]; simp)
                simp at hja
      · intro j a post pre e ha
        subst ha
        rcases List.append_eq_append_iff.mp e with ⟨w, e1, e2⟩ | ⟨w, e1, e2⟩
        · exact i7 j true post w e2 rfl
        · cases w with
          | nil => exact i7 j true post [] (by simpa using e2.symm) rfl
          | cons w0 w =>
            exfalso
            simp only [List.cons_append, List.cons.injEq] at e2
            obtain ⟨rfl, -⟩ := e2
            have hmem : (.asked j true : Event α M) ∈ as ++ (.acqui s1.base.model st.base.currentIteration :: mid) := by rw [e1]; simp
            rcases List.mem_append.mp hmem with h | h
            · rw [eas] at h
              simp at h
            · rcases List.mem_cons.mp h with h | h
              · simp at h
              · rcases hm2 _ h with ⟨_, _, h⟩ | ⟨_, h⟩ | ⟨_, h⟩ <;> simp at h

end Limbo
