import Verif.Lemmas.Bo3

/-! The log files of the `Samples`, `Observations` and `AggregatedObservations` statistics. -/

namespace Limbo

set_option linter.unusedSectionVars false

variable {α M : Type} [Scalar α]

theorem refreshStats_get {st : BoState α M} {afun : List α → α} : ∀ {ss : List (Stat α M)} {ls ls' : List (List (LogLine α))},
    refreshStats st afun ss ls = some ls' → ∀ {k : Nat} {s : Stat α M} {l : List (LogLine α)}, ss[k]? = some s → ls[k]? = some l →
    ∃ new, s st afun = some new ∧ ls'[k]? = some (l ++ new) := by
  intro ss
  induction ss with
  | nil => intro ls ls' h k s l hs; simp at hs
  | cons s0 ss ih =>
    intro ls ls' h k s l hs hl
    cases ls with
    | nil => simp at hl
    | cons l0 ls =>
      simp only [refreshStats] at h
      split at h
      · next new rest h1 h2 =>
        simp only [Option.some.injEq] at h
        subst h
        cases k with
        | zero =>
          simp only [List.getElem?_cons_zero, Option.some.injEq] at hs hl ⊢
          subst hs; subst hl
          exact ⟨new, h1, rfl⟩
        | succ k =>
          simp only [List.getElem?_cons_succ] at hs hl ⊢
          exact ih h2 hs hl
      · simp at h

theorem logAll_snoc (t : Nat) (b n : List (List α)) (y : List α) :
    logAll (b ++ (n ++ [y])) ((t + n.length : Nat) : Int) =
      (if t + n.length = 0 then .header :: (b ++ n).map (.row (-1)) else []) ++ [.row ((t + n.length : Nat) : Int) y] := by
  have h1 : (b ++ (n ++ [y])).getLast? = some y := by simp
  have h2 : (b ++ (n ++ [y])).dropLast = b ++ n := by rw [← List.append_assoc, List.dropLast_concat]
  simp only [logAll, h1, h2]
  by_cases h : t + n.length = 0
  · rw [if_pos h, if_pos (by exact_mod_cast h)]
  · rw [if_neg h, if_neg (by exact_mod_cast h)]

theorem expectedLog_snoc (t : Nat) (b n : List (List α)) (y : List α) :
    expectedLog t b (n ++ [y]) = expectedLog t b n ++ logAll (b ++ (n ++ [y])) ((t + n.length : Nat) : Int) := by
  rw [logAll_snoc]
  cases n with
  | nil => simp [expectedLog]
  | cons z zs =>
    simp only [expectedLog]
    rw [if_neg (show ¬ (z :: zs ++ [y] = []) by simp), if_neg (show ¬ (z :: zs = []) by simp),
      if_neg (show ¬ (t + (z :: zs).length = 0) by simp)]
    rw [List.nil_append, List.append_assoc, List.mapIdx_concat]

/-- what statistic `s` appends when the last of the pairs `b ++ n ++ [y]` is new continues `X` -/
def StatAppends (s : Stat α M) (afun : List α → α) (t : Nat) (X : List (List α × List α) → List (List α × List α) → List (LogLine α)) : Prop :=
  ∀ (st : BoState α M) b n y new, st.samples.length = st.observations.length → st.samples.zip st.observations = b ++ (n ++ [y]) →
    st.totalIterations = ((t + n.length : Nat) : Int) → s st afun = some new → X b (n ++ [y]) = X b n ++ new

theorem statAll_appends {s : Stat α M} {afun : List α → α} {p : List α × List α → List α} (t : Nat)
    (hs : ∀ st : BoState α M, st.samples.length = st.observations.length →
      s st afun = some (logAll ((st.samples.zip st.observations).map p) st.totalIterations)) :
    StatAppends s afun t fun b n => expectedLog t (b.map p) (n.map p) := by
  intro st b n y new hl hd ht hnew
  rw [hs st hl, hd, ht, Option.some.injEq] at hnew
  rw [← hnew]
  simp only [List.map_append, List.map_cons, List.map_nil]
  rw [expectedLog_snoc, List.length_map]

/-- events of one call before its first iteration / from its first iteration on -/
structure LogS (st0 : BoState α M) (pre it : List (Event α M)) (st : BoState α M) : Prop where
  trace : st.trace = st0.trace ++ pre ++ it
  acq0 : acquiCount pre = 0
  shape : it = [] ∨ ∃ m c tl, it = .acqui m c :: tl
  inner : ∀ e ∈ it, InnerEvent (fun _ => True) e
  inv : DataInv st

/-- the log agrees with the iterations made -/
structure LogT (X : List (List α × List α) → List (List α × List α) → List (LogLine α)) (k : Nat) (L0 : List (LogLine α)) (t : Nat) (st0 : BoState α M) (pre it : List (Event α M))
    (st : BoState α M) : Prop extends LogS st0 pre it st where
  log : st.logs[k]? = some (L0 ++ X (expect (st0.trace ++ pre)) (expectFrom [] it))

structure LogA (X : List (List α × List α) → List (List α × List α) → List (LogLine α)) (k : Nat) (L0 : List (LogLine α)) (t : Nat) (st0 : BoState α M) (pre it : List (Event α M))
    (st : BoState α M) : Prop extends LogT X k L0 t st0 pre it st where
  tot : st.totalIterations = ((t + (expectFrom [] it).length : Nat) : Int)

variable {X : List (List α × List α) → List (List α × List α) → List (LogLine α)} {k : Nat} {L0 : List (LogLine α)} {t : Nat} {st0 : BoState α M}

theorem LogS.data {pre it : List (Event α M)} {st : BoState α M} (h : LogS st0 pre it st) :
    st.samples.zip st.observations = expect (st0.trace ++ pre) ++ expectFrom [] it := by
  rw [h.inv.zip, h.trace]
  simp only [expect]
  rw [expectFrom_append, expectFrom_inner it h.inner]

theorem expectFrom_snoc_neutral (acc : List (List α × List α)) (it : List (Event α M)) (e : Event α M) (h : e.neutral) :
    expectFrom acc (it ++ [e]) = expectFrom acc it := by
  rw [expectFrom_append]
  simp only [expectFrom, List.foldl_cons, List.foldl_nil]
  exact expectStep_neutral _ _ h

theorem LogS.push {pre it : List (Event α M)} {st : BoState α M} (h : LogS st0 pre it st) (e : Event α M) (he : e.neutral)
    (hi : InnerEvent (fun _ => True) e) (hs : it ≠ [] ∨ ∃ m c, e = .acqui m c) : LogS st0 pre (it ++ [e]) (st.push e) := by
  refine ⟨by simp [BoState.push, h.trace], h.acq0, ?_, ?_, h.inv.push e he⟩
  · right
    rcases h.shape with h1 | ⟨m, c, tl, h1⟩
    · rcases hs with hs | ⟨m, c, rfl⟩
      · exact absurd h1 hs
      · exact ⟨m, c, [], by simp [h1]⟩
    · exact ⟨m, c, tl ++ [e], by simp [h1]⟩
  · intro e' he'
    rcases List.mem_append.1 he' with h1 | h1
    · exact h.inner e' h1
    · rw [List.mem_singleton.1 h1]; exact hi

theorem LogT.push {pre it : List (Event α M)} {st : BoState α M} (h : LogT X k L0 t st0 pre it st) (e : Event α M) (he : e.neutral)
    (hi : InnerEvent (fun _ => True) e) (hs : it ≠ [] ∨ ∃ m c, e = .acqui m c) : LogT X k L0 t st0 pre (it ++ [e]) (st.push e) :=
  ⟨h.toLogS.push e he hi hs, by rw [expectFrom_snoc_neutral _ _ _ he]; exact h.log⟩

theorem LogA.push {pre it : List (Event α M)} {st : BoState α M} (h : LogA X k L0 t st0 pre it st) (e : Event α M) (he : e.neutral)
    (hi : InnerEvent (fun _ => True) e) (hs : it ≠ [] ∨ ∃ m c, e = .acqui m c) : LogA X k L0 t st0 pre (it ++ [e]) (st.push e) :=
  ⟨h.toLogT.push e he hi hs, by rw [expectFrom_snoc_neutral _ _ _ he]; exact h.tot⟩

/-- changes outside data, trace and logs -/
theorem LogT.of_eq {pre it : List (Event α M)} {st st' : BoState α M} (h : LogT X k L0 t st0 pre it st) (h1 : st'.samples = st.samples)
    (h2 : st'.observations = st.observations) (h3 : st'.trace = st.trace) (h4 : st'.logs = st.logs) : LogT X k L0 t st0 pre it st' :=
  ⟨⟨by rw [h3]; exact h.trace, h.acq0, h.shape, h.inner, h.inv.of_eq h1 h2 h3⟩, by rw [h4]; exact h.log⟩

theorem boStop_log {P : BoParams α M} {afun : List α → α} {st st' : BoState α M} {b : Bool} (hs : boStop P afun st = some (b, st'))
    {pre it : List (Event α M)} (h : LogA X k L0 t st0 pre it st) : ∃ pre' it', LogA X k L0 t st0 pre' it' st' := by
  have hinv := boStop_inv hs h.inv
  obtain ⟨as, rfl, has⟩ := boStop_spec hs
  rcases h.shape with h1 | ⟨m, c, tl, h1⟩
  · subst h1
    have he : expect (st0.trace ++ (pre ++ as)) = expect (st0.trace ++ pre) := by
      simp only [expect]; rw [← List.append_assoc, expectFrom_append, expectFrom_asked _ _ has]
    refine ⟨pre ++ as, [], ⟨⟨⟨by simp [h.trace], ?_, Or.inl rfl, by simp, hinv⟩, by rw [he]; exact h.log⟩, h.tot⟩⟩
    rw [acquiCount_append, h.acq0, (asked_nothing has).2.2.1]
  · have he : expectFrom [] (it ++ as) = expectFrom [] it := by
      rw [expectFrom_append, expectFrom_asked _ _ has]
    refine ⟨pre, it ++ as, ⟨⟨⟨by simp [h.trace], h.acq0, Or.inr ⟨m, c, tl ++ as, by simp [h1]⟩, ?_, hinv⟩, by rw [he]; exact h.log⟩,
      by rw [he]; exact h.tot⟩⟩
    intro e hm
    rcases List.mem_append.1 hm with h2 | h2
    · exact h.inner e h2
    · obtain ⟨j, a, rfl⟩ := has e h2; trivial

theorem boIteration_log {P : BoParams α M} (hen : P.statsEnabled = true) {s : Stat α M} (hk : P.stats[k]? = some s) {afun : List α → α}
    (hs : StatAppends s afun t X)
    (f : StateFun α M) (st : BoState α M) {pre it : List (Event α M)} (h : LogA X k L0 t st0 pre it st) :
    (boIteration P f afun st).All (fun st' => ∃ it', LogA X k L0 t st0 pre it' st') (fun st' => ∃ it', LogT X k L0 t st0 pre it' st') := by
  have h0 := h.push (.acqui st.model st.currentIteration) (by simp [Event.neutral]) trivial (Or.inr ⟨_, _, rfl⟩)
  have hne : it ++ [.acqui st.model st.currentIteration] ≠ [] := by simp
  generalize hit : it ++ [.acqui st.model st.currentIteration] = it0 at h0 hne
  unfold boIteration
  simp only
  split
  · trivial
  · exact ⟨_, h0.toLogT⟩
  · next x hx =>
    have hshape : ∀ e : Event α M, (it0 ++ [e]) = [] ∨ ∃ m c tl, it0 ++ [e] = .acqui m c :: tl := by
      intro e
      rcases h0.shape with h1 | ⟨m, c, tl, h1⟩
      · exact absurd h1 hne
      · exact Or.inr ⟨m, c, tl ++ [e], by simp [h1]⟩
    generalize st.push (.acqui st.model st.currentIteration) = sa at h0
    have hev := evalAndAdd_inv f x sa h0.inv
    refine Res.All.andThen (Q := fun s1 => ∃ v, LogS st0 pre (it0 ++ [.call x (.ret v)]) s1 ∧ s1.logs = sa.logs ∧ s1.totalIterations = sa.totalIterations ∧
        expectFrom [] (it0 ++ [.call x (.ret v)]) = expectFrom [] it0 ++ [(x, v)]) ?_ ?_
    · cases hr : evalAndAdd f x sa with
      | ok s1 =>
        rw [hr] at hev
        obtain ⟨v, hv, hfin, rfl⟩ := evalAndAdd_ok hr
        refine ⟨v, ⟨by simp [h0.trace], h0.acq0, hshape _, ?_, hev⟩, rfl, rfl, ?_⟩
        · intro e' he'
          rcases List.mem_append.1 he' with h1 | h1
          · exact h0.inner e' h1
          · rw [List.mem_singleton.1 h1]; trivial
        · rw [expectFrom_append]
          simp only [expectFrom, List.foldl_cons, List.foldl_nil, expectStep]
          rw [if_pos ((all_finite_iff v).2 hfin)]
      | throw e s1 =>
        rw [hr] at hev
        have hfacts : s1.samples = sa.samples ∧ s1.observations = sa.observations ∧ s1.logs = sa.logs ∧
            s1.trace = sa.trace ++ [.call x (f.call sa.trace x)] := by
          unfold evalAndAdd at hr
          simp only at hr
          split at hr
          · simp only [Res.throw.injEq] at hr; rw [← hr.2]; exact ⟨rfl, rfl, rfl, rfl⟩
          · unfold addNewSample at hr
            split at hr
            · simp only [Res.throw.injEq] at hr; rw [← hr.2]; exact ⟨rfl, rfl, rfl, rfl⟩
            · simp at hr
        obtain ⟨f1, f2, f3, f4⟩ := hfacts
        have hS : LogS st0 pre (it0 ++ [.call x (f.call sa.trace x)]) s1 := by
          refine ⟨by rw [f4, h0.trace]; simp, h0.acq0, hshape _, ?_, hev⟩
          intro e' he'
          rcases List.mem_append.1 he' with h1 | h1
          · exact h0.inner e' h1
          · rw [List.mem_singleton.1 h1]; trivial
        refine ⟨_, hS, ?_⟩
        have : expectFrom [] (it0 ++ [.call x (f.call sa.trace x)]) = expectFrom [] it0 := by
          have e1 := hS.data
          rw [f1, f2, h0.toLogS.data] at e1
          exact (List.append_cancel_left e1).symm
        rw [this, f3]
        exact h0.log
      | ub => trivial
      | diverge => trivial
    · rintro s1 ⟨v, h1, hlog, htot, hN⟩
      have h1' := h1.push (.stat s1.model) (by simp [Event.neutral]) trivial (Or.inl (by simp))
      refine Res.All.andThen (Q := fun s2 => LogA X k L0 t st0 pre (it0 ++ [.call x (.ret v)] ++ [.stat s1.model])
          { s2 with totalIterations := s2.totalIterations + 1 }) ?_ ?_
      · refine updateStats_all _ _ _ _ _ fun logs hl => ?_
        rw [if_pos hen] at hl
        obtain ⟨new, hnew, hget⟩ := refreshStats_get hl hk (by rw [hlog]; exact h0.log)
        have hN' : expectFrom [] (it0 ++ [.call x (.ret v)] ++ [.stat s1.model]) = expectFrom [] it0 ++ [(x, v)] := by
          rw [expectFrom_snoc_neutral _ _ _ (by simp [Event.neutral]), hN]
        have hdata := h1'.data
        rw [hN'] at hdata
        refine ⟨⟨⟨h1'.trace, h1'.acq0, h1'.shape, h1'.inner, h1'.inv.of_eq rfl rfl rfl⟩, ?_⟩, ?_⟩
        · simp only
          rw [hget, hN', List.append_assoc, hs _ _ _ _ _ h1'.inv.len hdata (htot.trans h0.tot) hnew]
        · simp only [hN']
          have : (s1.push (.stat s1.model)).totalIterations = sa.totalIterations := htot
          rw [this, h0.tot]
          simp only [List.length_append, List.length_cons, List.length_nil]
          push_cast; omega
      · intro s2 h2
        refine Res.All.andThen (Q := fun s3 => LogA X k L0 t st0 pre (it0 ++ [.call x (.ret v)] ++ [.stat s1.model])
          { s3 with totalIterations := s3.totalIterations + 1 }) (boModelAdd_all _ _ _ _
            (fun _ _ m _ _ _ => by refine ⟨?_, h2.tot⟩; exact h2.toLogT.of_eq rfl rfl rfl rfl) (fun m => ⟨_, h2.toLogT.of_eq rfl rfl rfl rfl⟩)) ?_
        intro s3 h3
        have h3' := h3.push (.hp s3.model) (by simp [Event.neutral]) trivial (Or.inl (by simp))
        refine Res.All.andThen (Q := fun s4 => ∃ it', LogA X k L0 t st0 pre it' { s4 with totalIterations := s4.totalIterations + 1 })
          (boHp_all _ _ _ _ ?_ ?_ ?_) ?_
        · intro m _ _
          exact ⟨_, ⟨h3'.toLogT.of_eq rfl rfl rfl rfl, h3'.tot⟩⟩
        · intro m
          exact ⟨_, h3'.toLogT.of_eq rfl rfl rfl rfl⟩
        · intro _
          exact ⟨_, h3⟩
        · rintro s4 ⟨it', h4⟩
          exact ⟨it', ⟨h4.toLogT.of_eq rfl rfl rfl rfl, h4.tot⟩⟩

theorem boLoop_log {P : BoParams α M} (hen : P.statsEnabled = true) {s : Stat α M} (hk : P.stats[k]? = some s) {afun : List α → α}
    (hs : StatAppends s afun t X)
    (f : StateFun α M) : ∀ (fuel : Nat) (st : BoState α M), (∃ pre it, LogA X k L0 t st0 pre it st) →
    (boLoop P f afun fuel st).All (fun st' => ∃ pre it, LogA X k L0 t st0 pre it st') (fun st' => ∃ pre it, LogT X k L0 t st0 pre it st') := by
  intro fuel
  induction fuel with
  | zero => intro st h; trivial
  | succ n ih =>
    rintro st ⟨pre, it, h⟩
    unfold boLoop
    split
    · trivial
    · next st' hst => exact boStop_log hst h
    · next st' hst =>
      obtain ⟨pre', it', h'⟩ := boStop_log hst h
      refine Res.All.andThen (Q := fun s => ∃ pre it, LogA X k L0 t st0 pre it s) ?_ ih
      exact (boIteration_log hen hk hs f st' h').mono (fun s ⟨i, hi⟩ => ⟨pre', i, hi⟩) (fun s ⟨i, hi⟩ => ⟨pre', i, hi⟩)

/-- number of completed iterations recorded before this call counts from -/
def startTotal (reset : Bool) (st : BoState α M) : Nat := if reset then 0 else st.totalIterations.toNat

theorem evalAndAdd_frame (f : StateFun α M) (x : List α) (st : BoState α M) : (evalAndAdd f x st).All
    (fun s => s.logs = st.logs ∧ s.totalIterations = st.totalIterations ∧ ∃ r, s.trace = st.trace ++ [.call x r])
    (fun s => s.logs = st.logs ∧ s.totalIterations = st.totalIterations ∧ ∃ r, s.trace = st.trace ++ [.call x r]) := by
  unfold evalAndAdd
  simp only
  split
  · exact ⟨rfl, rfl, _, rfl⟩
  · unfold addNewSample
    split
    · exact ⟨rfl, rfl, _, rfl⟩
    · exact ⟨rfl, rfl, _, rfl⟩

theorem evalAll_frame (f : StateFun α M) (pts : List (List α)) (st0 : BoState α M) : ∀ st : BoState α M,
    (st.logs = st0.logs ∧ st.totalIterations = st0.totalIterations ∧ ∃ seg, st.trace = st0.trace ++ seg ∧ acquiCount seg = 0) →
    (evalAll f pts st).All
      (fun s => s.logs = st0.logs ∧ s.totalIterations = st0.totalIterations ∧ ∃ seg, s.trace = st0.trace ++ seg ∧ acquiCount seg = 0)
      (fun s => s.logs = st0.logs ∧ s.totalIterations = st0.totalIterations ∧ ∃ seg, s.trace = st0.trace ++ seg ∧ acquiCount seg = 0) := by
  induction pts with
  | nil => intro st h; exact h
  | cons x xs ih =>
    rintro st ⟨h1, h2, seg, h3, h4⟩
    refine Res.All.andThen ((evalAndAdd_frame f x st).mono ?_ ?_) ih <;>
    · rintro s ⟨a1, a2, r, a3⟩
      exact ⟨a1.trans h1, a2.trans h2, seg ++ [.call x r], by rw [a3, h3]; simp, by rw [acquiCount_append, h4]; rfl⟩

theorem optimize_log {P : BoParams α M} (hen : P.statsEnabled = true) {s : Stat α M} (hk : P.stats[k]? = some s) {afun : List α → α}
    (f : StateFun α M) (reset : Bool) (fuel : Nat) (st : BoState α M) (hs : StatAppends s afun (startTotal reset st) X) (h0 : ∀ b, X b [] = [])
    (hinv : DataInv st) (htot : 0 ≤ st.totalIterations)
    (hlog : st.logs[k]? = some L0) :
    (optimize P f afun reset fuel st).All (fun st' => ∃ pre it, LogA X k L0 (startTotal reset st) st pre it st')
      (fun st' => ∃ pre it, LogT X k L0 (startTotal reset st) st pre it st') := by
  have hst : (initState reset st).totalIterations = (startTotal reset st : Int) := by
    cases reset
    · simp only [initState, startTotal, BoState.push, Bool.false_eq_true, if_false]; omega
    · rfl
  have htr : (initState reset st).trace = st.trace ++ [.start reset] := by cases reset <;> rfl
  have hlg : (initState reset st).logs = st.logs := by cases reset <;> rfl
  have hfr : (boInit P f reset (st.push (.start reset))).All
      (fun s => s.logs = st.logs ∧ s.totalIterations = (startTotal reset st : Int) ∧ ∃ seg, s.trace = st.trace ++ seg ∧ acquiCount seg = 0)
      (fun s => s.logs = st.logs ∧ s.totalIterations = (startTotal reset st : Int) ∧ ∃ seg, s.trace = st.trace ++ seg ∧ acquiCount seg = 0) := by
    have hconv : ∀ s : BoState α M, (s.logs = (initState reset st).logs ∧ s.totalIterations = (initState reset st).totalIterations ∧
        ∃ seg, s.trace = (initState reset st).trace ++ seg ∧ acquiCount seg = 0) →
        (s.logs = st.logs ∧ s.totalIterations = (startTotal reset st : Int) ∧ ∃ seg, s.trace = st.trace ++ seg ∧ acquiCount seg = 0) := by
      rintro s ⟨a1, a2, seg, a3, a4⟩
      exact ⟨a1.trans hlg, a2.trans hst, .start reset :: seg, by rw [a3, htr]; simp, by simpa [acquiCount] using a4⟩
    have hself : ((initState reset st).logs = (initState reset st).logs ∧ (initState reset st).totalIterations = (initState reset st).totalIterations ∧
        ∃ seg, (initState reset st).trace = (initState reset st).trace ++ seg ∧ acquiCount seg = 0) := ⟨rfl, rfl, [], by simp, rfl⟩
    rw [boInit_eq]
    split
    · split
      · exact (evalAll_frame f _ (initState reset st) (initState reset st) hself).mono hconv hconv
      · trivial
    · exact hconv _ hself
  have hA := All_and (boInit_inv P f reset st hinv) hfr
  have hmk : ∀ s : BoState α M, (DataInv s ∧ (s.logs = st.logs ∧ s.totalIterations = (startTotal reset st : Int) ∧
      ∃ seg, s.trace = st.trace ++ seg ∧ acquiCount seg = 0)) → ∃ pre it, LogA X k L0 (startTotal reset st) st pre it s := by
    rintro s ⟨hd, a1, a2, seg, a3, a4⟩
    refine ⟨seg, [], ⟨⟨⟨by simp [a3], a4, Or.inl rfl, by simp, hd⟩, ?_⟩, ?_⟩⟩
    · rw [a1, hlog]
      simp [h0, expectFrom]
    · rw [a2]; simp [expectFrom]
  unfold optimize
  refine Res.All.andThen (Q := fun s => ∃ pre it, LogA X k L0 (startTotal reset st) st pre it s)
    (hA.mono hmk (fun s h => by obtain ⟨a, b, c⟩ := hmk s h; exact ⟨a, b, c.toLogT⟩)) ?_
  rintro s1 ⟨pre, it, h1⟩
  refine Res.All.andThen (Q := fun s => ∃ pre it, LogA X k L0 (startTotal reset st) st pre it s) ?_
    (boLoop_log hen hk hs f fuel)
  unfold boModelInit
  split
  · exact ⟨pre, it, ⟨h1.toLogT.of_eq rfl rfl rfl rfl, h1.tot⟩⟩
  · exact withModel_all _ _ _ _ (fun m _ => ⟨pre, it, ⟨h1.toLogT.of_eq rfl rfl rfl rfl, h1.tot⟩⟩)
      (fun m => ⟨pre, it, h1.toLogT.of_eq rfl rfl rfl rfl⟩)

end Limbo
