import Verif.Lemmas.Bo3

/-! Synchronisation of model and data (C06) for models whose operations are only meaningful on well-formed states: the model's content is
a relation `R m d` ("`m` is well-formed and holds the data `d`"). -/

namespace Limbo

variable {α M : Type} [Scalar α]

/-- Operations that keep a relation between model and data. -/
structure LawfulRel (ops : ModelOps α M) (R : M → List (List α × List α) → Prop) : Prop where
  fresh : ∀ i o, R (ops.fresh i o) []
  compute : ∀ s v m d m', R m d → s.length = v.length → ops.compute s v m = .ok m' → R m' (s.zip v)
  addSample : ∀ s v m d m', R m d → ops.addSample s v m = .ok m' → R m' (d ++ [(s, v)])
  optHp : ∀ m d m', R m d → ops.optHp m = .ok m' → R m' d
  computeThrow : ∀ s v m d e m', R m d → ops.compute s v m = .throw e m' → ∃ d', R m' d'
  addThrow : ∀ s v m d e m', R m d → ops.addSample s v m = .throw e m' → ∃ d', R m' d'
  hpThrow : ∀ m d e m', R m d → ops.optHp m = .throw e m' → ∃ d', R m' d'

/-- What the model must contain when an event happens, given the events before it. -/
def EvRel (R : M → List (List α × List α) → Prop) (pre : List (Event α M)) : Event α M → Prop
  | .acqui m _ => R m (expect pre)
  | .hp m => R m (expect pre)
  | .stat m => ∃ d p, R m d ∧ expect pre = d ++ [p]
  | _ => True

def TraceRel (R : M → List (List α × List α) → Prop) (tr : List (Event α M)) : Prop :=
  ∀ pre e, pre ++ [e] <+: tr → EvRel R pre e

variable {R : M → List (List α × List α) → Prop}

theorem TraceRel.snoc {tr : List (Event α M)} {e : Event α M} (h : TraceRel R tr) (he : EvRel R tr e) : TraceRel R (tr ++ [e]) := by
  intro pre e' hp
  rcases List.prefix_concat_iff.1 hp with h1 | h1
  · obtain ⟨rfl, h2⟩ := List.append_inj' h1 rfl
    simp only [List.cons.injEq, and_true] at h2
    subst h2; exact he
  · exact h pre e' h1

theorem TraceRel.append_free {tr es : List (Event α M)} (h : TraceRel R tr) (he : ∀ e ∈ es, ∀ pre, EvRel R pre e) : TraceRel R (tr ++ es) := by
  induction es generalizing tr with
  | nil => simpa using h
  | cons e es ih =>
    have := ih (h.snoc (he e (by simp) tr)) (fun e he' => he e (by simp [he']))
    simpa using this

/-- between calls: the model is well-formed but may lack data given since -/
structure RelT (R : M → List (List α × List α) → Prop) (st : BoState α M) : Prop where
  inv : DataInv st
  tr : TraceRel R st.trace
  wf : ∃ d, R st.model d

/-- in sync -/
structure RelQ (R : M → List (List α × List α) → Prop) (st : BoState α M) : Prop where
  inv : DataInv st
  tr : TraceRel R st.trace
  model : R st.model (st.samples.zip st.observations)

theorem RelQ.toT {st : BoState α M} (h : RelQ R st) : RelT R st := ⟨h.inv, h.tr, _, h.model⟩

/-- between evaluation and model update: the model lacks the last pair -/
structure RelL (R : M → List (List α × List α) → Prop) (x v : List α) (st : BoState α M) : Prop where
  inv : DataInv st
  tr : TraceRel R st.trace
  model : ∃ d, R st.model d ∧ st.samples.zip st.observations = d ++ [(x, v)]
  lastS : st.samples.getLast? = some x
  lastV : st.observations.getLast? = some v

theorem withModel_all2 (st : BoState α M) (r : Res M) (Q T : BoState α M → Prop)
    (hq : ∀ m, r = .ok m → Q { st with model := m }) (ht : ∀ e m, r = .throw e m → T { st with model := m }) : (withModel st r).All Q T := by
  cases r with
  | ok m => exact hq m rfl
  | throw e m => exact ht e m rfl
  | ub => trivial
  | diverge => trivial

/-- the trace, samples and observations grow by the call only; the model stays -/
theorem evalAndAdd_keeps_model (f : StateFun α M) (x : List α) (st : BoState α M) :
    (evalAndAdd f x st).All (fun s => s.model = st.model ∧ s.trace = st.trace ++ [.call x (f.call st.trace x)])
      (fun s => s.model = st.model ∧ s.trace = st.trace ++ [.call x (f.call st.trace x)]) := by
  unfold evalAndAdd
  simp only
  split
  · next hr => exact ⟨rfl, by simp [BoState.push, hr]⟩
  · next v hr =>
    unfold addNewSample
    split
    · exact ⟨rfl, by simp [BoState.push, hr]⟩
    · exact ⟨rfl, by simp [BoState.push, hr]⟩

theorem evalAndAdd_relT (f : StateFun α M) (x : List α) (st : BoState α M) (h : RelT R st) :
    (evalAndAdd f x st).All (RelT R) (RelT R) := by
  have h2 : TraceRel R (st.trace ++ [.call x (f.call st.trace x)]) := h.tr.snoc trivial
  refine (All_and (evalAndAdd_inv f x st h.inv) (evalAndAdd_keeps_model f x st)).mono ?_ ?_
  · rintro s ⟨h1, h3, h4⟩; exact ⟨h1, by rw [h4]; exact h2, by rw [h3]; exact h.wf⟩
  · rintro s ⟨h1, h3, h4⟩; exact ⟨h1, by rw [h4]; exact h2, by rw [h3]; exact h.wf⟩

theorem evalAll_relT (f : StateFun α M) (pts : List (List α)) : ∀ st : BoState α M, RelT R st → (evalAll f pts st).All (RelT R) (RelT R) := by
  induction pts with
  | nil => intro st h; exact h
  | cons x xs ih => intro st h; exact (evalAndAdd_relT f x st h).andThen ih

theorem evalAndAdd_rel (f : StateFun α M) (x : List α) (st : BoState α M) (h : RelQ R st) :
    (evalAndAdd f x st).All (fun s => ∃ v, RelL R x v s) (RelT R) := by
  have h1 := evalAndAdd_relT f x st h.toT
  cases hr : evalAndAdd f x st with
  | ok s =>
    rw [hr] at h1
    obtain ⟨v, hv, -, rfl⟩ := evalAndAdd_ok hr
    refine ⟨v, h1.inv, h1.tr, ⟨_, h.model, ?_⟩, by simp, by simp⟩
    rw [List.zip_append h.inv.len]; rfl
  | throw e s => rw [hr] at h1; exact h1
  | ub => trivial
  | diverge => trivial

theorem boIteration_rel {P : BoParams α M} (hL : LawfulRel P.ops R) (f : StateFun α M) (afun : List α → α) (st : BoState α M) (h : RelQ R st) :
    (boIteration P f afun st).All (RelQ R) (RelT R) := by
  have h0 : RelQ R (st.push (.acqui st.model st.currentIteration)) :=
    ⟨h.inv.push _ (by simp [Event.neutral]), h.tr.snoc (by show R st.model (expect st.trace); rw [← h.inv.zip]; exact h.model), h.model⟩
  unfold boIteration
  simp only
  split
  · trivial
  · exact h0.toT
  · next x hx =>
    refine (evalAndAdd_rel f x _ h0).andThen ?_
    rintro s1 ⟨v, h1⟩
    have h1' : RelL R x v (s1.push (.stat s1.model)) := by
      refine ⟨h1.inv.push _ (by simp [Event.neutral]), h1.tr.snoc ?_, h1.model, h1.lastS, h1.lastV⟩
      obtain ⟨d, hd, hz⟩ := h1.model
      exact ⟨d, (x, v), hd, by rw [← h1.inv.zip, hz]⟩
    refine Res.All.andThen (Q := RelL R x v) (updateStats_all _ _ _ _ _ fun logs _ =>
      ⟨h1'.inv.of_eq rfl rfl rfl, h1'.tr, h1'.model, h1'.lastS, h1'.lastV⟩) ?_
    intro s2 h2
    obtain ⟨d, hd, hz⟩ := h2.model
    refine Res.All.andThen (Q := RelQ R) ?_ ?_
    · unfold boModelAdd
      rw [h2.lastS, h2.lastV]
      refine withModel_all2 _ _ _ _ (fun m hm => ⟨h2.inv.of_eq rfl rfl rfl, h2.tr, ?_⟩) (fun e m hm => ⟨h2.inv.of_eq rfl rfl rfl, h2.tr, ?_⟩)
      · simp only; rw [hz]; exact hL.addSample _ _ _ _ _ hd hm
      · exact hL.addThrow _ _ _ _ _ _ hd hm
    · intro s3 h3
      have h3' : RelQ R (s3.push (.hp s3.model)) :=
        ⟨h3.inv.push _ (by simp [Event.neutral]), h3.tr.snoc (by show R s3.model (expect s3.trace); rw [← h3.inv.zip]; exact h3.model), h3.model⟩
      refine Res.All.andThen (Q := RelQ R) ?_ ?_
      · unfold boHp
        split
        · refine withModel_all2 _ _ _ _ (fun m hm => ⟨h3'.inv.of_eq rfl rfl rfl, h3'.tr, ?_⟩) (fun e m hm => ⟨h3'.inv.of_eq rfl rfl rfl, h3'.tr, ?_⟩)
          · exact hL.optHp _ _ _ h3'.model hm
          · exact hL.hpThrow _ _ _ _ h3'.model hm
        · exact h3
      · intro s4 h4
        exact ⟨h4.inv.of_eq rfl rfl rfl, h4.tr, h4.model⟩

theorem boStop_rel {P : BoParams α M} {afun : List α → α} {st : BoState α M} {b : Bool} {st' : BoState α M}
    (hs : boStop P afun st = some (b, st')) (h : RelQ R st) : RelQ R st' := by
  have hi := boStop_inv hs h.inv
  obtain ⟨as, rfl, has⟩ := boStop_spec hs
  exact ⟨hi, h.tr.append_free fun e he pre => by obtain ⟨j, a, rfl⟩ := has e he; trivial, h.model⟩

theorem boLoop_rel {P : BoParams α M} (hL : LawfulRel P.ops R) (f : StateFun α M) (afun : List α → α) :
    ∀ (fuel : Nat) (st : BoState α M), RelQ R st → (boLoop P f afun fuel st).All (RelQ R) (RelT R) := by
  intro fuel
  induction fuel with
  | zero => intro st h; trivial
  | succ n ih =>
    intro st h
    unfold boLoop
    split
    · trivial
    · next st' hs => exact boStop_rel hs h
    · next st' hs => exact (boIteration_rel hL f afun st' (boStop_rel hs h)).andThen ih

theorem initState_inv (reset : Bool) (st : BoState α M) (h : DataInv st) : DataInv (initState reset st) := by
  cases reset
  · refine ⟨h.len, ?_, h.fin⟩
    simp only [initState, BoState.push, Bool.false_eq_true, if_false]; rw [expect_append]; exact h.zip
  · refine ⟨rfl, ?_, by simp [initState]⟩
    simp only [initState, BoState.push, if_true]; rw [expect_append]; rfl

theorem boInit_relT (P : BoParams α M) (f : StateFun α M) (reset : Bool) (st : BoState α M) (h : RelT R st) :
    (boInit P f reset (st.push (.start reset))).All (RelT R) (RelT R) := by
  have hT : TraceRel R (initState reset st).trace := by
    have : (initState reset st).trace = st.trace ++ [.start reset] := by cases reset <;> rfl
    rw [this]; exact h.tr.snoc trivial
  have hm : ∃ d, R (initState reset st).model d := by
    have : (initState reset st).model = st.model := by cases reset <;> rfl
    rw [this]; exact h.wf
  have hbase : DataInv (initState reset st) := initState_inv reset st h.inv
  rw [boInit_eq]
  split
  · split
    · exact evalAll_relT f _ _ ⟨hbase, hT, hm⟩
    · trivial
  · exact ⟨hbase, hT, hm⟩

theorem optimize_rel {P : BoParams α M} (hL : LawfulRel P.ops R) (f : StateFun α M) (afun : List α → α) (reset : Bool) (fuel : Nat)
    (st : BoState α M) (h : RelT R st) : (optimize P f afun reset fuel st).All (RelQ R) (RelT R) := by
  unfold optimize
  refine Res.All.andThen (Q := RelT R) (boInit_relT P f reset st h) ?_
  intro s1 h1
  refine Res.All.andThen (Q := RelQ R) ?_ fun s2 h2 => boLoop_rel hL f afun fuel s2 h2
  unfold boModelInit
  obtain ⟨d, hd⟩ := h1.wf
  split
  · next he =>
    refine ⟨h1.inv.of_eq rfl rfl rfl, h1.tr, ?_⟩
    simp only [List.isEmpty_iff] at he
    simp only [he, List.zip_nil_right]
    exact hL.fresh _ _
  · exact withModel_all2 _ _ _ _ (fun m hm => ⟨h1.inv.of_eq rfl rfl rfl, h1.tr, hL.compute _ _ _ _ _ hd h1.inv.len hm⟩)
      (fun e m hm => ⟨h1.inv.of_eq rfl rfl rfl, h1.tr, hL.computeThrow _ _ _ _ _ _ hd hm⟩)

theorem runOp_rel {P : BoParams α M} (hL : LawfulRel P.ops R) (op : BoOp α M) (st : BoState α M) (h : RelT R st) :
    (runOp P op st).All (RelT R) (RelT R) := by
  cases op with
  | optimize f afun reset fuel => exact (optimize_rel hL f afun reset fuel st h).mono (fun s h => h.toT) (fun s h => h)
  | addNewSample s v =>
    have hd := runOp_inv P (.addNewSample s v) st h.inv
    have ht : (runOp P (.addNewSample s v) st).All (fun s => TraceRel R s.trace ∧ ∃ d, R s.model d) (fun s => TraceRel R s.trace ∧ ∃ d, R s.model d) := by
      have : TraceRel R (st.push (.given s v)).trace := h.tr.snoc trivial
      simp only [runOp, addNewSample]
      split
      · exact ⟨this, h.wf⟩
      · exact ⟨this, h.wf⟩
    exact (All_and hd ht).mono (fun s h => ⟨h.1, h.2.1, h.2.2⟩) (fun s h => ⟨h.1, h.2.1, h.2.2⟩)
  | evalAndAdd f x => exact evalAndAdd_relT f x st h

end Limbo
