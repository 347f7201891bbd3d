import Verif.Lemmas.BoStat
import Verif.Lemmas.Multi3
import Verif.Spec.ParetoStat

/-! What the statistics of the multi-objective optimizers write, over whole histories. -/

namespace Limbo

set_option linter.unusedSectionVars false

variable {α M : Type} [Scalar α]

/-- the state in which a statistic ran -/
structure MuSnap (pre : List (Event α (MM α M))) (g : MM α M) (q : BoState α (MM α M)) : Prop where
  inv : DataInv q
  trace : q.trace = pre ++ [.stat g]
  model : q.model = g
  last : ∃ tr0 x y, pre = tr0 ++ [.call x (.ret y)] ∧ AllFinite y
  count : q.currentIteration = (statsInRun pre : Int)

/-- log `k` is what statistic `s` wrote; `run`: inside a run -/
structure MuSt (k : Nat) (s : Stat α (MM α M)) (run : Bool) (st : BoState α (MM α M)) : Prop where
  inv : DataInv st
  cnt : run = true → st.currentIteration = (statsInRun st.trace : Int)
  log : ∃ blks : List (List (LogLine α)), st.logs[k]? = some blks.flatten ∧
    List.Forall₂ (fun p blk => ∃ q afun, MuSnap p.1 p.2 q ∧ s q afun = some blk) (statPoints st.trace) blks

variable {k : Nat} {s : Stat α (MM α M)} {run : Bool} {P : MuParams α M}

theorem statsInRun_snoc {N : Type} (tr : List (Event α N)) (e : Event α N) : statsInRun (tr ++ [e]) =
    (match e with | .start _ => 0 | .stat _ => statsInRun tr + 1 | _ => statsInRun tr) := by
  unfold statsInRun
  rw [List.foldl_append]
  cases e <;> rfl

/-- events inside a run, other than refreshes -/
def Event.inside {N : Type} : Event α N → Prop
  | .start _ => False
  | .stat _ => False
  | _ => True

theorem inside_append {N : Type} {tr es : List (Event α N)} (h : ∀ e ∈ es, e.inside) : statPoints (tr ++ es) = statPoints tr ∧
    statsInRun (tr ++ es) = statsInRun tr := by
  induction es generalizing tr with
  | nil => simp
  | cons e es ih =>
    have h2 := ih (tr := tr ++ [e]) fun e he => h e (by simp [he])
    rw [List.append_assoc, List.singleton_append] at h2
    have he := h e (by simp)
    rw [h2.1, h2.2, statPoints_snoc, statsInRun_snoc]
    cases e <;> simp_all [Event.inside]

theorem MuSt.weaken {st : BoState α (MM α M)} (h : MuSt k s run st) : MuSt k s false st := ⟨h.inv, by simp, h.log⟩

theorem MuSt.of_inside {st st' : BoState α (MM α M)} (h : MuSt k s run st) (hi : DataInv st') (hl : st'.logs = st.logs)
    (ht : st'.currentIteration = st.currentIteration) (es : List (Event α (MM α M))) (he : st'.trace = st.trace ++ es)
    (hq : ∀ e ∈ es, e.inside) : MuSt k s run st' := by
  obtain ⟨h1, h2⟩ := inside_append (tr := st.trace) hq
  refine ⟨hi, fun hr => by rw [ht, h.cnt hr, he, h2], ?_⟩
  rw [hl, he, h1]; exact h.log

theorem MuSt.model {st : BoState α (MM α M)} (h : MuSt k s run st) (mm : MM α M) : MuSt k s run { st with model := mm } :=
  h.of_inside (h.inv.of_eq rfl rfl rfl) rfl rfl [] (by simp) (by simp)

theorem evalAndAdd_cur {N : Type} (f : StateFun α N) (x : List α) (st : BoState α N) :
    (evalAndAdd f x st).All (fun s => s.currentIteration = st.currentIteration) (fun s => s.currentIteration = st.currentIteration) := by
  unfold evalAndAdd
  simp only
  split
  · rfl
  · unfold addNewSample
    split <;> rfl

theorem evalAndAdd_must (f : StateFun α (MM α M)) (x : List α) {st : BoState α (MM α M)} (h : MuSt k s run st) :
    (evalAndAdd f x st).All (MuSt k s run) (MuSt k s run) := by
  refine ((evalAndAdd_inv f x st h.inv).and ((evalAndAdd_static f x st).and (evalAndAdd_cur f x st))).mono ?_ ?_
  · rintro s' ⟨h1, ⟨h2, -, r, h4⟩, h5⟩
    exact h.of_inside h1 h2 h5 [.call x r] h4 (by simp [Event.inside])
  · rintro s' ⟨h1, ⟨h2, -, r, h4⟩, h5⟩
    exact h.of_inside h1 h2 h5 [.call x r] h4 (by simp [Event.inside])

theorem evalAll_must (f : StateFun α (MM α M)) (pts : List (List α)) : ∀ st : BoState α (MM α M), MuSt k s run st →
    (evalAll f pts st).All (MuSt k s run) (MuSt k s run) := by
  induction pts with
  | nil => intro st h; exact h
  | cons x xs ih => intro st h; exact (evalAndAdd_must f x h).andThen ih

theorem muFinish_must (hen : P.bo.statsEnabled = true) (hs : P.bo.stats[k]? = some s) (f : StateFun α (MM α M)) (afun : List α → α) (b : Bool)
    (x : List α) {st : BoState α (MM α M)} (h : MuSt k s true st) : (muFinish P f afun b x st).All (MuSt k s true) (MuSt k s true) := by
  unfold muFinish
  refine Res.All.andThen (Q := fun s1 => MuSt k s true s1 ∧ ∃ tr0 y, s1.trace = tr0 ++ [.call x (.ret y)] ∧ AllFinite y) ?_ ?_
  · have h1 := evalAndAdd_must f x h
    cases hr : evalAndAdd f x st with
    | ok s1 =>
      rw [hr] at h1
      obtain ⟨v, -, hfin, he⟩ := evalAndAdd_ok hr
      exact ⟨h1, st.trace, v, by rw [he], hfin⟩
    | throw e s1 => rw [hr] at h1; exact h1
    | ub => trivial
    | diverge => trivial
  intro s1 h1
  refine Res.All.andThen (Q := fun s1 => MuSt k s true s1 ∧ ∃ tr0 y, s1.trace = tr0 ++ [.call x (.ret y)] ∧ AllFinite y) ?_ ?_
  · split
    · trivial
    · exact h1
  rintro s2 ⟨h2, tr0, y, htr, hfin⟩
  refine Res.All.andThen (Q := fun s3 => DataInv s3 ∧ s3.currentIteration + 1 = (statsInRun s3.trace : Int) ∧
    ∃ blks : List (List (LogLine α)), s3.logs[k]? = some blks.flatten ∧
      List.Forall₂ (fun p blk => ∃ q afun, MuSnap p.1 p.2 q ∧ s q afun = some blk) (statPoints s3.trace) blks)
    (updateStats_all _ _ _ _ _ fun logs hlogs => ?_) ?_
  · rw [if_pos hen] at hlogs
    obtain ⟨blks, hb1, hb2⟩ := h2.log
    have hinv : DataInv (s2.push (.stat s2.model)) := h2.inv.push _ (by simp [Event.neutral])
    obtain ⟨new, hn1, hn2⟩ := refreshStats_get hlogs hs hb1
    refine ⟨hinv.of_eq rfl rfl rfl, ?_, blks ++ [new], by rw [hn2]; simp, ?_⟩
    · show s2.currentIteration + 1 = _
      simp only [BoState.push]
      rw [statsInRun_snoc, h2.cnt rfl]
      simp
    · simp only [BoState.push]
      rw [statPoints_snoc]
      exact List.rel_append hb2 (List.Forall₂.cons ⟨s2.push (.stat s2.model), afun, ⟨hinv, rfl, rfl, ⟨tr0, x, y, htr, hfin⟩, h2.cnt rfl⟩, hn1⟩ .nil)
  · rintro s3 ⟨h3, h4, h5⟩
    exact ⟨h3.of_eq rfl rfl rfl, fun _ => h4, h5⟩

theorem muBody_must (hen : P.bo.statsEnabled = true) (hs : P.bo.stats[k]? = some s) (kd : MuKind) (f : StateFun α (MM α M)) (afun : List α → α)
    {st : BoState α (MM α M)} (h : MuSt k s true st) : (muBody kd P f afun st).All (MuSt k s true) (MuSt k s true) := by
  cases kd with
  | ehvi =>
    show (ehviIteration P f afun st).All _ _
    unfold ehviIteration
    refine Res.All.andThen (Q := MuSt k s true) (updateParetoModel_all _ _ _ _ _ (fun mm => h.model mm) (fun mm => h.model mm)) fun s1 h1 => ?_
    refine Res.All.andThen (Q := MuSt k s true) (updateParetoData_all _ _ _ _ (fun r => h1.model _)) fun s2 h2 => ?_
    cases hp : ehviPick P s2 with
    | ub => trivial
    | threw => exact h2
    | point x => exact muFinish_must hen hs f afun false x h2
  | nsbo =>
    show (nsboIteration P f afun st).All _ _
    unfold nsboIteration
    refine Res.All.andThen (Q := MuSt k s true) (updateParetoModel_all _ _ _ _ _ (fun mm => h.model mm) (fun mm => h.model mm)) fun s1 h1 => ?_
    cases hp : callPset P 2 (fun p => p.2.2) s1 s1.model.paretoModel with
    | none => trivial
    | some pv =>
      simp only
      cases hb : pv[P.rand s1 % pv.length]? with
      | none => trivial
      | some best => exact muFinish_must hen hs f afun true best.1 h1

theorem muLoop_must (hen : P.bo.statsEnabled = true) (hs : P.bo.stats[k]? = some s) (kd : MuKind) (f : StateFun α (MM α M)) (afun : List α → α) :
    ∀ (fuel : Nat) (st : BoState α (MM α M)), MuSt k s true st → (muLoop P (muBody kd P f afun) afun fuel st).All (MuSt k s true) (MuSt k s true) := by
  intro fuel
  induction fuel with
  | zero => intro st h; trivial
  | succ n ih =>
    intro st h
    have hstop : ∀ b st', boStop P.bo afun st = some (b, st') → MuSt k s true st' := by
      intro b st' hs'
      have hi := boStop_inv hs' h.inv
      obtain ⟨as, rfl, has⟩ := boStop_spec hs'
      exact h.of_inside hi rfl rfl as rfl fun e he => by obtain ⟨j, a, rfl⟩ := has e he; trivial
    unfold muLoop
    split
    · exact (muBody_must hen hs kd f afun h).andThen ih
    · split
      · trivial
      · next st' hs' => exact hstop _ _ hs'
      · next st' hs' => exact (muBody_must hen hs kd f afun (hstop _ _ hs')).andThen ih

theorem muOp_must (hen : P.bo.statsEnabled = true) (hs : P.bo.stats[k]? = some s) (op : MuOp α M) (st : BoState α (MM α M))
    (h : MuSt k s false st) : (muOp P op st).All (MuSt k s false) (MuSt k s false) := by
  cases op with
  | optimize kd f afun reset fuel =>
    have hinit : MuSt k s true (initState reset st) := by
      have htr : (initState reset st).trace = st.trace ++ [.start reset] := by cases reset <;> rfl
      refine ⟨initState_inv reset st h.inv, fun _ => ?_, ?_⟩
      · rw [htr, statsInRun_snoc]
        cases reset <;> rfl
      · have hl : (initState reset st).logs = st.logs := by cases reset <;> rfl
        rw [hl, htr, statPoints_snoc]
        simpa using h.log
    refine Res.All.mono (Q := MuSt k s true) (T := MuSt k s true) ?_ (fun _ h => h.weaken) (fun _ h => h.weaken)
    show (muOptimize kd P f afun reset fuel st).All _ _
    unfold muOptimize
    refine Res.All.andThen (Q := MuSt k s true) ?_ fun s1 h1 => muLoop_must hen hs kd f afun fuel s1 h1
    rw [boInit_eq]
    split
    · split
      · exact evalAll_must f _ _ hinit
      · trivial
    · exact hinit
  | addNewSample x v =>
    have hd := muOp_data P (.addNewSample x v) st h.inv
    have hq : (muOp P (.addNewSample x v) st).All (fun s => s.logs = st.logs ∧ s.currentIteration = st.currentIteration ∧ s.trace = st.trace ++ [.given x v])
        (fun s => s.logs = st.logs ∧ s.currentIteration = st.currentIteration ∧ s.trace = st.trace ++ [.given x v]) := by
      simp only [muOp, addNewSample]
      split <;> exact ⟨rfl, rfl, rfl⟩
    refine (hd.and hq).mono ?_ ?_
    · rintro s' ⟨a, b, c, d⟩; exact h.of_inside a b c [.given x v] d (by simp [Event.inside])
    · rintro s' ⟨a, b, c, d⟩; exact h.of_inside a b c [.given x v] d (by simp [Event.inside])
  | evalAndAdd f x => exact evalAndAdd_must f x h
  | updateParetoData => exact updateParetoData_all _ _ _ _ (fun r => h.model _)
  | updateParetoModel d => exact updateParetoModel_all _ _ _ _ _ (fun mm => h.model mm) (fun mm => h.model mm)

theorem newMulti_must (c : Int) (hs : P.bo.stats[k]? = some s) : MuSt k s false (newMulti P c) := by
  refine ⟨newBo_inv P.bo c _, by simp, [], ?_, .nil⟩
  have hk := (List.getElem?_eq_some_iff.mp hs).1
  simp [newMulti, newBo, hk]

end Limbo
