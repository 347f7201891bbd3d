import Verif.Lemmas.Bo3
import Verif.Lemmas.BoRel
import Verif.Lemmas.BoLog

/-! Every log file is the concatenation of what its statistic wrote at the statistics events of the trace. -/

namespace Limbo

variable {α M : Type} [Scalar α]

/-- the state in which a statistic ran: just after event `.stat g`, which follows the events `pre` -/
structure SnapOk (pre : List (Event α M)) (g : M) (q : BoState α M) : Prop where
  inv : DataInv q
  trace : q.trace = pre ++ [.stat g]
  model : q.model = g
  last : ∃ tr0 x y, pre = tr0 ++ [.acqui g q.currentIteration, .call x (.ret y)] ∧ AllFinite y ∧ q.samples.getLast? = some x ∧
    q.observations.getLast? = some y
  total : q.totalIterations = (statsSince pre : Int)

/-- log `k` is what statistic `s` wrote -/
structure StatInv (k : Nat) (s : Stat α M) (afun : List α → α) (st : BoState α M) : Prop where
  inv : DataInv st
  total : st.totalIterations = (statsSince st.trace : Int)
  log : ∃ blks : List (List (LogLine α)), st.logs[k]? = some blks.flatten ∧
    List.Forall₂ (fun p blk => ∃ q, SnapOk p.1 p.2 q ∧ s q afun = some blk) (statPoints st.trace) blks

theorem statPointsFrom_snoc (tr : List (Event α M)) (e : Event α M) : ∀ pre, statPointsFrom pre (tr ++ [e]) =
    statPointsFrom pre tr ++ (match e with | .stat g => [(pre ++ tr, g)] | _ => []) := by
  induction tr with
  | nil => intro pre; cases e <;> simp [statPointsFrom]
  | cons a tr ih => intro pre; simp [statPointsFrom, ih]

theorem statPoints_snoc (tr : List (Event α M)) (e : Event α M) : statPoints (tr ++ [e]) =
    statPoints tr ++ (match e with | .stat g => [(tr, g)] | _ => []) := by
  unfold statPoints; rw [statPointsFrom_snoc]; simp

theorem statsSince_snoc (tr : List (Event α M)) (e : Event α M) : statsSince (tr ++ [e]) = statsStep (statsSince tr) e := by
  unfold statsSince; rw [List.foldl_append]; rfl

/-- events that touch neither the count nor the blocks -/
def Event.quiet : Event α M → Prop
  | .start true => False
  | .stat _ => False
  | _ => True

theorem statPoints_quiet {tr : List (Event α M)} {e : Event α M} (h : e.quiet) : statPoints (tr ++ [e]) = statPoints tr ∧
    statsSince (tr ++ [e]) = statsSince tr := by
  rw [statPoints_snoc, statsSince_snoc]
  cases e with
  | start r => cases r with
    | true => exact absurd h (by simp [Event.quiet])
    | false => simp [statsStep]
  | stat g => exact absurd h (by simp [Event.quiet])
  | call x r => simp [statsStep]
  | given a b => simp [statsStep]
  | asked a b => simp [statsStep]
  | acqui a b => simp [statsStep]
  | hp a => simp [statsStep]

theorem quiet_append {tr es : List (Event α M)} (h : ∀ e ∈ es, e.quiet) : statPoints (tr ++ es) = statPoints tr ∧
    statsSince (tr ++ es) = statsSince tr := by
  induction es generalizing tr with
  | nil => simp
  | cons e es ih =>
    have h1 := statPoints_quiet (tr := tr) (h e (by simp))
    have h2 := ih (tr := tr ++ [e]) fun e he => h e (by simp [he])
    rw [List.append_assoc, List.singleton_append] at h2
    exact ⟨h2.1.trans h1.1, h2.2.trans h1.2⟩

variable {k : Nat} {s : Stat α M} {afun : List α → α} {P : BoParams α M}

theorem StatInv.of_quiet {st st' : BoState α M} (h : StatInv k s afun st) (hi : DataInv st') (hl : st'.logs = st.logs)
    (ht : st'.totalIterations = st.totalIterations) (es : List (Event α M)) (he : st'.trace = st.trace ++ es) (hq : ∀ e ∈ es, e.quiet) :
    StatInv k s afun st' := by
  obtain ⟨h1, h2⟩ := quiet_append (tr := st.trace) hq
  refine ⟨hi, by rw [ht, h.total, he, h2], ?_⟩
  rw [hl, he, h1]; exact h.log

/-- what an evaluation leaves alone -/
theorem evalAndAdd_static (f : StateFun α M) (x : List α) (st : BoState α M) :
    (evalAndAdd f x st).All (fun s => s.logs = st.logs ∧ s.totalIterations = st.totalIterations ∧ ∃ r, s.trace = st.trace ++ [.call x r])
      (fun s => s.logs = st.logs ∧ s.totalIterations = st.totalIterations ∧ ∃ r, s.trace = st.trace ++ [.call x r]) := by
  unfold evalAndAdd
  simp only
  split
  · exact ⟨rfl, rfl, _, rfl⟩
  · unfold addNewSample
    split
    · exact ⟨rfl, rfl, _, rfl⟩
    · exact ⟨rfl, rfl, _, rfl⟩

theorem evalAndAdd_stat (f : StateFun α M) (x : List α) (st : BoState α M) (h : StatInv k s afun st) :
    (evalAndAdd f x st).All (StatInv k s afun) (StatInv k s afun) := by
  refine (All_and (evalAndAdd_inv f x st h.inv) (evalAndAdd_static f x st)).mono ?_ ?_
  · rintro s' ⟨h1, h2, h3, r, h4⟩
    exact h.of_quiet h1 h2 h3 [.call x r] h4 (by simp [Event.quiet])
  · rintro s' ⟨h1, h2, h3, r, h4⟩
    exact h.of_quiet h1 h2 h3 [.call x r] h4 (by simp [Event.quiet])

theorem evalAll_stat (f : StateFun α M) (pts : List (List α)) : ∀ st : BoState α M, StatInv k s afun st →
    (evalAll f pts st).All (StatInv k s afun) (StatInv k s afun) := by
  induction pts with
  | nil => intro st h; exact h
  | cons x xs ih => intro st h; exact (evalAndAdd_stat f x st h).andThen ih

/-- model operations that never throw -/
structure NoThrow (ops : ModelOps α M) : Prop where
  compute : ∀ s v m e m', ops.compute s v m ≠ .throw e m'
  addSample : ∀ s v m e m', ops.addSample s v m ≠ .throw e m'
  optHp : ∀ m e m', ops.optHp m ≠ .throw e m'

theorem boIteration_stat (hen : P.statsEnabled = true) (hs : P.stats[k]? = some s) (hN : NoThrow P.ops) (f : StateFun α M) (st : BoState α M)
    (h : StatInv k s afun st) : (boIteration P f afun st).All (StatInv k s afun) (StatInv k s afun) := by
  have h0 : StatInv k s afun (st.push (.acqui st.model st.currentIteration)) :=
    h.of_quiet (h.inv.push _ (by simp [Event.neutral])) rfl rfl [.acqui st.model st.currentIteration] rfl (by simp [Event.quiet])
  unfold boIteration
  simp only
  split
  · trivial
  · exact h0
  · next x hx =>
    refine Res.All.andThen (Q := fun s1 => StatInv k s afun s1 ∧ ∃ v, AllFinite v ∧ s1 =
        { st with
          samples := st.samples ++ [x]
          observations := st.observations ++ [v]
          trace := st.trace ++ [.acqui st.model st.currentIteration, .call x (.ret v)] }) ?_ ?_
    · have h1 := evalAndAdd_stat (k := k) (s := s) (afun := afun) f x _ h0
      cases hr : evalAndAdd f x (st.push (.acqui st.model st.currentIteration)) with
      | ok s1 =>
        rw [hr] at h1
        obtain ⟨v, hv, hfin, he⟩ := evalAndAdd_ok hr
        refine ⟨h1, v, hfin, ?_⟩
        rw [he]; simp [BoState.push]
      | throw e s1 => rw [hr] at h1; exact h1
      | ub => trivial
      | diverge => trivial
    · rintro s1 ⟨h1, v, hfin, he⟩
      -- after the statistics: count and blocks include the new one, the counter not yet
      refine Res.All.andThen (Q := fun s2 => DataInv s2 ∧ s2.totalIterations + 1 = (statsSince s2.trace : Int) ∧
        ∃ blks : List (List (LogLine α)), s2.logs[k]? = some blks.flatten ∧
          List.Forall₂ (fun p blk => ∃ q, SnapOk p.1 p.2 q ∧ s q afun = some blk) (statPoints s2.trace) blks)
        (updateStats_all _ _ _ _ _ fun logs hlogs => ?_) ?_
      · rw [if_pos hen] at hlogs
        obtain ⟨blks, hb1, hb2⟩ := h1.log
        have hinv : DataInv (s1.push (.stat s1.model)) := h1.inv.push _ (by simp [Event.neutral])
        obtain ⟨new, hn1, hn2⟩ := refreshStats_get hlogs hs hb1
        refine ⟨hinv.of_eq rfl rfl rfl, ?_, blks ++ [new], by rw [hn2]; simp, ?_⟩
        · show s1.totalIterations + 1 = _
          simp only [BoState.push]
          rw [statsSince_snoc, h1.total]
          simp [statsStep]
        · simp only [BoState.push]
          rw [statPoints_snoc]
          refine List.rel_append hb2 (List.Forall₂.cons ⟨s1.push (.stat s1.model), ⟨hinv, rfl, rfl, ?_, h1.total⟩, hn1⟩ .nil)
          rw [he]
          exact ⟨st.trace, x, v, rfl, hfin, by simp [BoState.push], by simp [BoState.push]⟩
      · rintro s2 ⟨hi2, ht2, hb2⟩
        refine Res.All.andThen (Q := fun s2 => DataInv s2 ∧ s2.totalIterations + 1 = (statsSince s2.trace : Int) ∧
          ∃ blks : List (List (LogLine α)), s2.logs[k]? = some blks.flatten ∧
            List.Forall₂ (fun p blk => ∃ q, SnapOk p.1 p.2 q ∧ s q afun = some blk) (statPoints s2.trace) blks) ?_ ?_
        · unfold boModelAdd
          split
          · exact withModel_all2 _ _ _ _ (fun m hm => ⟨hi2.of_eq rfl rfl rfl, ht2, hb2⟩) (fun e m hm => absurd hm (hN.addSample _ _ _ _ _))
          · trivial
        · rintro s3 ⟨hi3, ht3, hb3⟩
          refine Res.All.andThen (Q := fun s2 => DataInv s2 ∧ s2.totalIterations + 1 = (statsSince s2.trace : Int) ∧
            ∃ blks : List (List (LogLine α)), s2.logs[k]? = some blks.flatten ∧
              List.Forall₂ (fun p blk => ∃ q, SnapOk p.1 p.2 q ∧ s q afun = some blk) (statPoints s2.trace) blks) ?_ ?_
          · unfold boHp
            split
            · refine withModel_all2 _ _ _ _ (fun m hm => ⟨(hi3.push (.hp s3.model) (by simp [Event.neutral])).of_eq rfl rfl rfl, ?_, ?_⟩)
                (fun e m hm => absurd hm (hN.optHp _ _ _))
              · simp only [BoState.push]
                rw [(statPoints_quiet (by simp [Event.quiet])).2]; exact ht3
              · simp only [BoState.push]
                rw [(statPoints_quiet (by simp [Event.quiet])).1]; exact hb3
            · exact ⟨hi3, ht3, hb3⟩
          · rintro s4 ⟨hi4, ht4, hb4⟩
            exact ⟨hi4.of_eq rfl rfl rfl, ht4, hb4⟩

theorem boLoop_stat (hen : P.statsEnabled = true) (hs : P.stats[k]? = some s) (hN : NoThrow P.ops) (f : StateFun α M) : ∀ (fuel : Nat)
    (st : BoState α M), StatInv k s afun st → (boLoop P f afun fuel st).All (StatInv k s afun) (StatInv k s afun) := by
  intro fuel
  induction fuel with
  | zero => intro st h; trivial
  | succ n ih =>
    intro st h
    have hstop : ∀ b st', boStop P afun st = some (b, st') → StatInv k s afun st' := by
      intro b st' hs'
      have hi := boStop_inv hs' h.inv
      obtain ⟨as, rfl, has⟩ := boStop_spec hs'
      exact h.of_quiet hi rfl rfl as rfl fun e he => by obtain ⟨j, a, rfl⟩ := has e he; trivial
    unfold boLoop
    split
    · trivial
    · next st' hs' => exact hstop _ _ hs'
    · next st' hs' => exact (boIteration_stat hen hs hN f st' (hstop _ _ hs')).andThen ih

theorem optimize_stat (hen : P.statsEnabled = true) (hs : P.stats[k]? = some s) (hN : NoThrow P.ops) (f : StateFun α M) (reset : Bool) (fuel : Nat)
    (st : BoState α M) (h : StatInv k s afun st) : (optimize P f afun reset fuel st).All (StatInv k s afun) (StatInv k s afun) := by
  have hinit : StatInv k s afun (initState reset st) := by
    have hi := initState_inv reset st h.inv
    cases reset
    · exact h.of_quiet hi rfl rfl [.start false] rfl (by simp [Event.quiet])
    · refine ⟨hi, ?_, ?_⟩
      · show (0 : Int) = _
        have : (initState true st).trace = st.trace ++ [.start true] := rfl
        rw [this, statsSince_snoc]; rfl
      · have : (initState true st).trace = st.trace ++ [.start true] := rfl
        rw [this, statPoints_snoc]
        have hl : (initState true st).logs = st.logs := rfl
        rw [hl]
        simpa using h.log
  unfold optimize
  refine Res.All.andThen (Q := StatInv k s afun) ?_ ?_
  · rw [boInit_eq]
    split
    · split
      · exact evalAll_stat f _ _ hinit
      · trivial
    · exact hinit
  · intro s1 h1
    refine Res.All.andThen (Q := StatInv k s afun) ?_ fun s2 h2 => boLoop_stat hen hs hN f fuel s2 h2
    unfold boModelInit
    split
    · exact ⟨h1.inv.of_eq rfl rfl rfl, h1.total, h1.log⟩
    · exact withModel_all2 _ _ _ _ (fun m hm => ⟨h1.inv.of_eq rfl rfl rfl, h1.total, h1.log⟩) (fun e m hm => absurd hm (hN.compute _ _ _ _ _))

theorem runOps_stat (hen : P.statsEnabled = true) (hs : P.stats[k]? = some s) (hN : NoThrow P.ops) : ∀ (ops : List (BoOp α M)),
    (∀ f a r n, BoOp.optimize f a r n ∈ ops → a = afun) → ∀ st st' : BoState α M, StatInv k s afun st → runOps P ops st = some st' → StatInv k s afun st' := by
  intro ops
  induction ops with
  | nil => intro _ st st' h he; simp only [runOps, Option.some.injEq] at he; subst he; exact h
  | cons o os ih =>
    intro ho st st' h he
    have h1 : (runOp P o st).All (StatInv k s afun) (StatInv k s afun) := by
      cases o with
      | optimize f a r n =>
        have := ho f a r n (by simp)
        subst this
        exact optimize_stat hen hs hN f r n st h
      | addNewSample x v =>
        have hd := runOp_inv P (.addNewSample x v) st h.inv
        have hq : (runOp P (.addNewSample x v) st).All (fun s => s.logs = st.logs ∧ s.totalIterations = st.totalIterations ∧ s.trace = st.trace ++ [.given x v])
            (fun s => s.logs = st.logs ∧ s.totalIterations = st.totalIterations ∧ s.trace = st.trace ++ [.given x v]) := by
          simp only [runOp, addNewSample]
          split <;> exact ⟨rfl, rfl, rfl⟩
        refine (All_and hd hq).mono ?_ ?_
        · rintro s' ⟨a, b, c, d⟩; exact h.of_quiet a b c [.given x v] d (by simp [Event.quiet])
        · rintro s' ⟨a, b, c, d⟩; exact h.of_quiet a b c [.given x v] d (by simp [Event.quiet])
      | evalAndAdd f x => exact evalAndAdd_stat f x st h
    have ih' := ih fun f a r n hm => ho f a r n (by simp [hm])
    simp only [runOps] at he
    cases hr : runOp P o st with
    | ok q => rw [hr] at h1 he; exact ih' q st' h1 he
    | throw e q => rw [hr] at h1 he; exact ih' q st' h1 he
    | ub => rw [hr] at he; cases he
    | diverge => rw [hr] at he; cases he

theorem newBo_stat (c : Int) (m : M) (hs : P.stats[k]? = some s) : StatInv k s afun (newBo P c m) := by
  refine ⟨newBo_inv P c m, rfl, [], ?_, .nil⟩
  have hk := (List.getElem?_eq_some_iff.mp hs).1
  simp [newBo, hk]

end Limbo
