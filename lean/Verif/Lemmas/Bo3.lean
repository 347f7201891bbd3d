import Verif.Lemmas.Bo2

/-! More invariants of the Bayesian-optimization loop: which events occur, model synchronisation, logs, best point. -/

namespace Limbo

set_option linter.unusedSectionVars false

variable {α M : Type} [Scalar α]

/-! ## Events added by a call -/

/-- Events that may occur inside `optimize` after its start; objective calls only on points satisfying `B`. -/
def InnerEvent (B : List α → Prop) : Event α M → Prop
  | .start _ => False
  | .given _ _ => False
  | .call x _ => B x
  | _ => True

/-- `st` extends the trace of `st0` with inner events. -/
def Grows (B : List α → Prop) (st0 st : BoState α M) : Prop :=
  ∃ seg, st.trace = st0.trace ++ seg ∧ ∀ e ∈ seg, InnerEvent B e

theorem Grows.of_trace {B : List α → Prop} {st0 st st' : BoState α M} (h : Grows B st0 st) (h3 : st'.trace = st.trace) : Grows B st0 st' := by
  obtain ⟨seg, h1, h2⟩ := h
  exact ⟨seg, by rw [h3, h1], h2⟩

theorem Grows.refl (B : List α → Prop) (st : BoState α M) : Grows B st st := ⟨[], by simp, by simp⟩

theorem Grows.push {B : List α → Prop} {st0 st : BoState α M} (h : Grows B st0 st) (e : Event α M) (he : InnerEvent B e) :
    Grows B st0 (st.push e) := by
  obtain ⟨seg, h1, h2⟩ := h
  refine ⟨seg ++ [e], by simp [BoState.push, h1], ?_⟩
  intro e' he'
  rcases List.mem_append.1 he' with h | h
  · exact h2 e' h
  · rw [List.mem_singleton.1 h]; exact he

theorem evalAndAdd_grows {B : List α → Prop} {st0 : BoState α M} (f : StateFun α M) (x : List α) (hx : B x) (st : BoState α M)
    (h : Grows B st0 st) : (evalAndAdd f x st).All (Grows B st0) (Grows B st0) := by
  have h' := h.push (.call x (f.call st.trace x)) hx
  unfold evalAndAdd
  simp only
  split
  · exact h'
  · unfold addNewSample
    split
    · exact h'
    · exact h'.of_trace rfl

theorem evalAll_grows {B : List α → Prop} {st0 : BoState α M} (f : StateFun α M) (pts : List (List α)) (hp : ∀ x ∈ pts, B x) :
    ∀ st : BoState α M, Grows B st0 st → (evalAll f pts st).All (Grows B st0) (Grows B st0) := by
  induction pts with
  | nil => intro st h; exact h
  | cons x xs ih =>
    intro st h
    exact (evalAndAdd_grows f x (hp x (by simp)) st h).andThen (ih fun y hy => hp y (by simp [hy]))

theorem boStop_grows {B : List α → Prop} {st0 : BoState α M} {P : BoParams α M} {afun : List α → α} {st : BoState α M} {b : Bool}
    {st' : BoState α M} (hs : boStop P afun st = some (b, st')) (h : Grows B st0 st) : Grows B st0 st' := by
  obtain ⟨as, rfl, has⟩ := boStop_spec hs
  obtain ⟨seg, h1, h2⟩ := h
  refine ⟨seg ++ as, by simp [h1], ?_⟩
  intro e he
  rcases List.mem_append.1 he with h | h
  · exact h2 e h
  · obtain ⟨j, a, rfl⟩ := has e h; trivial

theorem boIteration_grows {B : List α → Prop} {st0 : BoState α M} (P : BoParams α M) (f : StateFun α M) (afun : List α → α)
    (hB : ∀ (st : BoState α M) g x, P.acquiOpt st g (P.startPt st f.dimIn) P.bounded = .point x → B x)
    (st : BoState α M) (h : Grows B st0 st) : (boIteration P f afun st).All (Grows B st0) (Grows B st0) := by
  have h0 := h.push (.acqui st.model st.currentIteration) trivial
  unfold boIteration
  simp only
  split
  · trivial
  · exact h0
  · next x hx =>
    refine (evalAndAdd_grows f x (hB _ _ x hx) _ h0).andThen ?_
    intro s1 h1
    refine Res.All.andThen (Q := Grows B st0) (updateStats_all _ _ _ _ _ fun logs _ => (h1.push (.stat s1.model) trivial).of_trace rfl) ?_
    intro s2 h2
    refine Res.All.andThen (Q := Grows B st0) (boModelAdd_all _ _ _ _ (fun _ _ m _ _ _ => h2.of_trace rfl) (fun m => h2.of_trace rfl)) ?_
    intro s3 h3
    have h3' := h3.push (.hp s3.model) trivial
    refine Res.All.andThen (Q := Grows B st0) (boHp_all _ _ _ _ (fun m _ _ => h3'.of_trace rfl) (fun m => h3'.of_trace rfl) (fun _ => h3)) ?_
    intro s4 h4
    exact h4.of_trace rfl

theorem boLoop_grows {B : List α → Prop} {st0 : BoState α M} (P : BoParams α M) (f : StateFun α M) (afun : List α → α)
    (hB : ∀ (st : BoState α M) g x, P.acquiOpt st g (P.startPt st f.dimIn) P.bounded = .point x → B x) :
    ∀ (fuel : Nat) (st : BoState α M), Grows B st0 st → (boLoop P f afun fuel st).All (Grows B st0) (Grows B st0) := by
  intro fuel
  induction fuel with
  | zero => intro st h; trivial
  | succ n ih =>
    intro st h
    unfold boLoop
    split
    · trivial
    · next st' hs => exact boStop_grows hs h
    · next st' hs => exact (boIteration_grows P f afun hB st' (boStop_grows hs h)).andThen ih

theorem optimize_grows (B : List α → Prop) (P : BoParams α M) (f : StateFun α M) (afun : List α → α) (reset : Bool) (fuel : Nat)
    (hinit : ∀ (st : BoState α M) pts, P.initPts st f.dimIn = some pts → ∀ x ∈ pts, B x)
    (hB : ∀ (st : BoState α M) g x, P.acquiOpt st g (P.startPt st f.dimIn) P.bounded = .point x → B x) (st : BoState α M) :
    (optimize P f afun reset fuel st).All (Grows B (st.push (.start reset))) (Grows B (st.push (.start reset))) := by
  unfold optimize
  have hi : Grows B (st.push (.start reset)) (initState reset st) := by
    refine (Grows.refl B (st.push (.start reset))).of_trace ?_
    cases reset <;> rfl
  refine Res.All.andThen (Q := Grows B (st.push (.start reset))) ?_ fun s1 h1 => Res.All.andThen (Q := Grows B (st.push (.start reset))) ?_
    fun s2 h2 => boLoop_grows P f afun hB fuel s2 h2
  · rw [boInit_eq]
    split
    · split
      · next pts hp => exact evalAll_grows f pts (hinit _ _ hp) _ hi
      · trivial
    · exact hi
  · unfold boModelInit
    split
    · exact h1.of_trace rfl
    · exact withModel_all _ _ _ _ (fun m _ => h1.of_trace rfl) (fun m => h1.of_trace rfl)

/-- Without resets the stored data only grows. -/
theorem expectFrom_inner {B : List α → Prop} (seg : List (Event α M)) (h : ∀ e ∈ seg, InnerEvent B e) :
    ∀ acc : List (List α × List α), expectFrom acc seg = acc ++ expectFrom [] seg := by
  induction seg with
  | nil => intro acc; simp [expectFrom]
  | cons e es ih =>
    intro acc
    have ih' := ih fun e he => h e (by simp [he])
    have he := h e (by simp)
    simp only [expectFrom, List.foldl_cons] at ih' ⊢
    rw [ih' (expectStep acc e), ih' (expectStep [] e), ← List.append_assoc]
    congr 1
    cases e with
    | start r => exact absurd he (by simp [InnerEvent])
    | call x r =>
      cases r with
      | ret v => simp only [expectStep]; split <;> simp
      | threw => simp [expectStep]
    | given s v => exact absurd he (by simp [InnerEvent])
    | asked k a => simp [expectStep]
    | acqui m i => simp [expectStep]
    | stat m => simp [expectStep]
    | hp m => simp [expectStep]

/-! ## Model synchronisation -/

/-- What the model must contain when an event happens, given the events before it. -/
def EvOk (data : M → List (List α × List α)) (pre : List (Event α M)) : Event α M → Prop
  | .acqui m _ => data m = expect pre
  | .hp m => data m = expect pre
  | .stat m => ∃ p, expect pre = data m ++ [p]
  | _ => True

def TraceOk (data : M → List (List α × List α)) (tr : List (Event α M)) : Prop :=
  ∀ pre e, pre ++ [e] <+: tr → EvOk data pre e

theorem TraceOk.snoc {data : M → List (List α × List α)} {tr : List (Event α M)} {e : Event α M} (h : TraceOk data tr)
    (he : EvOk data tr e) : TraceOk data (tr ++ [e]) := by
  intro pre e' hp
  rcases List.prefix_concat_iff.1 hp with h1 | h1
  · obtain ⟨rfl, h2⟩ := List.append_inj' h1 rfl
    simp only [List.cons.injEq, and_true] at h2
    subst h2; exact he
  · exact h pre e' h1

theorem TraceOk.append_free {data : M → List (List α × List α)} {tr es : List (Event α M)} (h : TraceOk data tr)
    (he : ∀ e ∈ es, ∀ pre, EvOk data pre e) : TraceOk data (tr ++ es) := by
  induction es generalizing tr with
  | nil => simpa using h
  | cons e es ih =>
    have := ih (h.snoc (he e (by simp) tr)) (fun e he' => he e (by simp [he']))
    simpa using this

structure SyncT (data : M → List (List α × List α)) (st : BoState α M) : Prop where
  inv : DataInv st
  tr : TraceOk data st.trace

structure SyncQ (data : M → List (List α × List α)) (st : BoState α M) : Prop extends SyncT data st where
  model : data st.model = st.samples.zip st.observations

/-- between evaluation and model update: the model lacks the last pair -/
structure SyncL (data : M → List (List α × List α)) (x v : List α) (st : BoState α M) : Prop extends SyncT data st where
  model : st.samples.zip st.observations = data st.model ++ [(x, v)]
  lastS : st.samples.getLast? = some x
  lastV : st.observations.getLast? = some v

theorem evalAndAdd_sync {data : M → List (List α × List α)} (f : StateFun α M) (x : List α) (st : BoState α M) (h : SyncQ data st) :
    (evalAndAdd f x st).All (fun s => ∃ v, SyncL data x v s) (SyncT data) := by
  have hd := evalAndAdd_inv f x st h.inv
  have hT : TraceOk data (st.trace ++ [.call x (f.call st.trace x)]) := h.tr.snoc trivial
  cases hr : evalAndAdd f x st with
  | ok s =>
    rw [hr] at hd
    obtain ⟨v, hv, -, rfl⟩ := evalAndAdd_ok hr
    rw [hv] at hT
    refine ⟨v, ⟨hd, hT⟩, ?_, by simp, by simp⟩
    simp only [h.model]
    rw [List.zip_append h.inv.len]; rfl
  | throw e s =>
    rw [hr] at hd
    refine ⟨hd, ?_⟩
    have : s.trace = st.trace ++ [.call x (f.call st.trace x)] := by
      unfold evalAndAdd at hr
      simp only at hr
      split at hr
      · simp only [Res.throw.injEq] at hr; rw [← hr.2]; rfl
      · unfold addNewSample at hr
        split at hr
        · simp only [Res.throw.injEq] at hr; rw [← hr.2]; rfl
        · simp at hr
    rw [this]; exact hT
  | ub => trivial
  | diverge => trivial

theorem evalAndAdd_traceOk {data : M → List (List α × List α)} (f : StateFun α M) (x : List α) (st : BoState α M)
    (h : TraceOk data st.trace) : (evalAndAdd f x st).All (fun s => TraceOk data s.trace) (fun s => TraceOk data s.trace) := by
  have hT : TraceOk data (st.push (.call x (f.call st.trace x))).trace := h.snoc trivial
  unfold evalAndAdd
  simp only
  split
  · exact hT
  · unfold addNewSample
    split
    · exact hT
    · exact hT

theorem evalAll_traceOk {data : M → List (List α × List α)} (f : StateFun α M) (pts : List (List α)) : ∀ st : BoState α M,
    TraceOk data st.trace → (evalAll f pts st).All (fun s => TraceOk data s.trace) (fun s => TraceOk data s.trace) := by
  induction pts with
  | nil => intro st h; exact h
  | cons x xs ih => intro st h; exact (evalAndAdd_traceOk f x st h).andThen ih

theorem boIteration_sync {data : M → List (List α × List α)} {P : BoParams α M} (hL : LawfulModel P.ops data) (f : StateFun α M)
    (afun : List α → α) (st : BoState α M) (h : SyncQ data st) : (boIteration P f afun st).All (SyncQ data) (SyncT data) := by
  have h0 : SyncQ data (st.push (.acqui st.model st.currentIteration)) :=
    ⟨⟨h.inv.push _ (by simp [Event.neutral]), h.tr.snoc (by simp only [EvOk]; rw [h.model, h.inv.zip])⟩, h.model⟩
  unfold boIteration
  simp only
  split
  · trivial
  · exact h0.toSyncT
  · next x hx =>
    refine (evalAndAdd_sync f x _ h0).andThen ?_
    rintro s1 ⟨v, h1⟩
    have h1' : SyncL data x v (s1.push (.stat s1.model)) :=
      ⟨⟨h1.inv.push _ (by simp [Event.neutral]), h1.tr.snoc ⟨(x, v), by rw [← h1.inv.zip, h1.model]⟩⟩, h1.model, h1.lastS, h1.lastV⟩
    refine Res.All.andThen (Q := SyncL data x v) (updateStats_all _ _ _ _ _ fun logs _ =>
      ⟨⟨h1'.inv.of_eq rfl rfl rfl, h1'.tr⟩, h1'.model, h1'.lastS, h1'.lastV⟩) ?_
    intro s2 h2
    refine Res.All.andThen (Q := SyncQ data) (boModelAdd_all _ _ _ _ ?_ (fun m => ⟨h2.inv.of_eq rfl rfl rfl, h2.tr⟩)) ?_
    · intro s' v' m hs' hv' hm
      rw [h2.lastS] at hs'; rw [h2.lastV] at hv'
      simp only [Option.some.injEq] at hs' hv'
      subst hs'; subst hv'
      exact ⟨⟨h2.inv.of_eq rfl rfl rfl, h2.tr⟩, by simp only; rw [hL.addSample _ _ _ _ hm, h2.model]⟩
    · intro s3 h3
      have h3' : SyncQ data (s3.push (.hp s3.model)) :=
        ⟨⟨h3.inv.push _ (by simp [Event.neutral]), h3.tr.snoc (by simp only [EvOk]; rw [h3.model, h3.inv.zip])⟩, h3.model⟩
      refine Res.All.andThen (Q := SyncQ data) (boHp_all _ _ _ _ ?_ (fun m => ⟨h3'.inv.of_eq rfl rfl rfl, h3'.tr⟩) (fun _ => h3)) ?_
      · intro m _ hm
        exact ⟨⟨h3'.inv.of_eq rfl rfl rfl, h3'.tr⟩, by simp only; rw [hL.optHp _ _ hm]; exact h3'.model⟩
      · intro s4 h4
        exact ⟨⟨h4.inv.of_eq rfl rfl rfl, h4.tr⟩, h4.model⟩

theorem boStop_sync {data : M → List (List α × List α)} {P : BoParams α M} {afun : List α → α} {st : BoState α M} {b : Bool}
    {st' : BoState α M} (hs : boStop P afun st = some (b, st')) (h : SyncQ data st) : SyncQ data st' := by
  have hi := boStop_inv hs h.inv
  obtain ⟨as, rfl, has⟩ := boStop_spec hs
  exact ⟨⟨hi, h.tr.append_free fun e he pre => by obtain ⟨j, a, rfl⟩ := has e he; trivial⟩, h.model⟩

theorem boLoop_sync {data : M → List (List α × List α)} {P : BoParams α M} (hL : LawfulModel P.ops data) (f : StateFun α M)
    (afun : List α → α) : ∀ (fuel : Nat) (st : BoState α M), SyncQ data st → (boLoop P f afun fuel st).All (SyncQ data) (SyncT data) := by
  intro fuel
  induction fuel with
  | zero => intro st h; trivial
  | succ n ih =>
    intro st h
    unfold boLoop
    split
    · trivial
    · next st' hs => exact boStop_sync hs h
    · next st' hs => exact (boIteration_sync hL f afun st' (boStop_sync hs h)).andThen ih

theorem All_and {σ : Type} {Q Q' T T' : σ → Prop} {r : Res σ} (h : r.All Q T) (h' : r.All Q' T') :
    r.All (fun s => Q s ∧ Q' s) (fun s => T s ∧ T' s) := by
  cases r with
  | ok s => exact ⟨h, h'⟩
  | throw e s => exact ⟨h, h'⟩
  | ub => trivial
  | diverge => trivial

theorem optimize_sync {data : M → List (List α × List α)} {P : BoParams α M} (hL : LawfulModel P.ops data) (f : StateFun α M)
    (afun : List α → α) (reset : Bool) (fuel : Nat) (st : BoState α M) (h : SyncT data st) :
    (optimize P f afun reset fuel st).All (SyncQ data) (SyncT data) := by
  unfold optimize
  have hT : TraceOk data (initState reset st).trace := by
    have : (initState reset st).trace = st.trace ++ [.start reset] := by cases reset <;> rfl
    rw [this]; exact h.tr.snoc trivial
  have htr : (boInit P f reset (st.push (.start reset))).All (fun s => TraceOk data s.trace) (fun s => TraceOk data s.trace) := by
    rw [boInit_eq]
    split
    · split
      · exact evalAll_traceOk f _ _ hT
      · trivial
    · exact hT
  refine Res.All.andThen (Q := SyncT data) ((All_and (boInit_inv P f reset st h.inv) htr).mono (fun s h => ⟨h.1, h.2⟩) (fun s h => ⟨h.1, h.2⟩)) ?_
  intro s1 h1
  refine Res.All.andThen (Q := SyncQ data) ?_ fun s2 h2 => boLoop_sync hL f afun fuel s2 h2
  unfold boModelInit
  split
  · next he =>
    refine ⟨⟨h1.inv.of_eq rfl rfl rfl, h1.tr⟩, ?_⟩
    simp only [List.isEmpty_iff] at he
    simp [hL.fresh, he]
  · exact withModel_all _ _ _ _ (fun m hm => ⟨⟨h1.inv.of_eq rfl rfl rfl, h1.tr⟩, hL.compute _ _ _ _ h1.inv.len hm⟩)
      (fun m => ⟨h1.inv.of_eq rfl rfl rfl, h1.tr⟩)

theorem runOp_sync {data : M → List (List α × List α)} {P : BoParams α M} (hL : LawfulModel P.ops data) (op : BoOp α M) (st : BoState α M)
    (h : SyncT data st) : (runOp P op st).All (SyncT data) (SyncT data) := by
  cases op with
  | optimize f afun reset fuel => exact (optimize_sync hL f afun reset fuel st h).mono (fun s h => h.toSyncT) (fun s h => h)
  | addNewSample s v =>
    have hd := runOp_inv P (.addNewSample s v) st h.inv
    have ht : (runOp P (.addNewSample s v) st).All (fun s => TraceOk data s.trace) (fun s => TraceOk data s.trace) := by
      have : TraceOk data (st.push (.given s v)).trace := h.tr.snoc trivial
      simp only [runOp, addNewSample]
      split
      · exact this
      · exact this
    exact (All_and hd ht).mono (fun s h => ⟨h.1, h.2⟩) (fun s h => ⟨h.1, h.2⟩)
  | evalAndAdd f x =>
    exact (All_and (evalAndAdd_inv f x st h.inv) (evalAndAdd_traceOk f x st h.tr)).mono (fun s h => ⟨h.1, h.2⟩) (fun s h => ⟨h.1, h.2⟩)

/-! ## `std::max_element` -/

variable [LawfulCmp α]
open LawfulCmp

theorem maxElementFrom_spec (l : List α) : ∀ (rest : List α) (pre : List α) (bi : Nat) (b : α), l = pre ++ rest →
    pre[bi]? = some b → (∀ x ∈ l, isNaN x = false) →
    (∀ (j : Nat) (x : α), pre[j]? = some x → le x b = true) → (∀ (j : Nat) (x : α), j < bi → pre[j]? = some x → lt x b = true) →
    ∃ m, l[maxElementFrom bi b pre.length rest]? = some m ∧ (∀ (j : Nat) (x : α), l[j]? = some x → le x m = true) ∧
      (∀ (j : Nat) (x : α), j < maxElementFrom bi b pre.length rest → l[j]? = some x → lt x m = true) := by
  intro rest
  induction rest with
  | nil =>
    intro pre bi b hl hb hn h1 h2
    simp only [List.append_nil] at hl
    subst hl
    exact ⟨b, hb, h1, h2⟩
  | cons x xs ih =>
    intro pre bi b hl hb hn h1 h2
    have hbi : bi < pre.length := by
      rcases Nat.lt_or_ge bi pre.length with h | h
      · exact h
      · rw [List.getElem?_eq_none h] at hb; simp at hb
    have hl' : l = (pre ++ [x]) ++ xs := by simp [hl]
    have hxl : x ∈ l := by simp [hl]
    have hbl : b ∈ l := by rw [hl]; exact List.mem_append_left _ (List.mem_of_getElem? hb)
    have hlen : (pre ++ [x]).length = pre.length + 1 := by simp
    simp only [maxElementFrom]
    by_cases hlt : lt b x = true
    · rw [if_pos hlt]
      have := ih (pre ++ [x]) pre.length x hl' (by simp) hn ?_ ?_
      · rwa [hlen] at this
      · intro j y hj
        rcases Nat.lt_or_ge j pre.length with hj' | hj'
        · rw [List.getElem?_append_left hj'] at hj
          exact le_of_lt (lt_of_le_of_lt (h1 j y hj) hlt)
        · rw [List.getElem?_append_right hj'] at hj
          have hy := List.mem_of_getElem? hj
          rw [List.mem_singleton.1 hy]
          exact le_refl' x (hn x hxl)
      · intro j y hj' hj
        rw [List.getElem?_append_left hj'] at hj
        exact lt_of_le_of_lt (h1 j y hj) hlt
    · rw [if_neg hlt]
      have hle : le x b = true := le_of_not_lt (hn b hbl) (hn x hxl) (by simpa using hlt)
      have := ih (pre ++ [x]) bi b hl' (by rw [List.getElem?_append_left hbi]; exact hb) hn ?_ ?_
      · rwa [hlen] at this
      · intro j y hj
        rcases Nat.lt_or_ge j pre.length with hj' | hj'
        · rw [List.getElem?_append_left hj'] at hj
          exact h1 j y hj
        · rw [List.getElem?_append_right hj'] at hj
          have hy := List.mem_of_getElem? hj
          rw [List.mem_singleton.1 hy]
          exact hle
      · intro j y hj' hj
        rw [List.getElem?_append_left (by omega)] at hj
        exact h2 j y hj' hj

theorem maxElement_spec (l : List α) (hne : l ≠ []) (hn : ∀ x ∈ l, isNaN x = false) :
    ∃ m, l[maxElement l]? = some m ∧ (∀ (j : Nat) (x : α), l[j]? = some x → le x m = true) ∧
      (∀ (j : Nat) (x : α), j < maxElement l → l[j]? = some x → lt x m = true) := by
  cases l with
  | nil => exact absurd rfl hne
  | cons y ys =>
    refine maxElementFrom_spec (y :: ys) ys [y] 0 y rfl rfl hn ?_ (by intro j x h; omega)
    intro j x hj
    have := List.mem_of_getElem? hj
    rw [List.mem_singleton.1 this]
    exact le_refl' y (hn y (by simp))

end Limbo
