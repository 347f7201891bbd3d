import Verif.Lemmas.Bo3

/-! Induction over the events of a history: what holds of the empty trace and is kept by every single event (taking the choice of a point and
its evaluation as one step) holds of the trace of every history. -/

namespace Limbo

variable {α M : Type} [Scalar α]

def Event.notAcqui : Event α M → Prop
  | .acqui _ _ => False
  | _ => True

/-- `T` is kept by the events of runs for objectives with a dimension in `D` and aggregator `afun`. -/
structure TraceStep (P : BoParams α M) (D : Nat → Prop) (afun : List α → α) (T : List (Event α M) → Prop) : Prop where
  other : ∀ tr e, T tr → e.notAcqui → T (tr ++ [e])
  threw : ∀ (st : BoState α M) n, T st.trace → D n →
    P.acquiOpt (st.push (.acqui st.model st.currentIteration)) (P.acqui st.model st.currentIteration afun)
      (P.startPt (st.push (.acqui st.model st.currentIteration)) n) P.bounded = .threw → T (st.trace ++ [.acqui st.model st.currentIteration])
  point : ∀ (st : BoState α M) n x r, T st.trace → D n →
    P.acquiOpt (st.push (.acqui st.model st.currentIteration)) (P.acqui st.model st.currentIteration afun)
      (P.startPt (st.push (.acqui st.model st.currentIteration)) n) P.bounded = .point x →
    T (st.trace ++ [.acqui st.model st.currentIteration, .call x r])

variable {P : BoParams α M} {D : Nat → Prop} {afun : List α → α} {T : List (Event α M) → Prop}

theorem TraceStep.others (h : TraceStep P D afun T) {tr : List (Event α M)} (ht : T tr) (es : List (Event α M)) (he : ∀ e ∈ es, e.notAcqui) :
    T (tr ++ es) := by
  induction es generalizing tr with
  | nil => simpa using ht
  | cons e es ih =>
    have := ih (h.other tr e ht (he e (by simp))) fun e' h' => he e' (by simp [h'])
    simpa using this

theorem evalAndAdd_traceT (h : TraceStep P D afun T) (f : StateFun α M) (x : List α) (st : BoState α M) (ht : T st.trace) :
    (evalAndAdd f x st).All (fun s => T s.trace) (fun s => T s.trace) := by
  have hc : T (st.push (.call x (f.call st.trace x))).trace := h.other _ _ ht trivial
  unfold evalAndAdd
  simp only
  split
  · exact hc
  · unfold addNewSample; split <;> exact hc

theorem evalAll_traceT (h : TraceStep P D afun T) (f : StateFun α M) (pts : List (List α)) : ∀ st : BoState α M, T st.trace →
    (evalAll f pts st).All (fun s => T s.trace) (fun s => T s.trace) := by
  induction pts with
  | nil => intro st ht; exact ht
  | cons x xs ih => intro st ht; exact (evalAndAdd_traceT h f x st ht).andThen ih

theorem boIteration_traceT (h : TraceStep P D afun T) (f : StateFun α M) (hf : D f.dimIn) (st : BoState α M) (ht : T st.trace) :
    (boIteration P f afun st).All (fun s => T s.trace) (fun s => T s.trace) := by
  unfold boIteration
  simp only
  split
  · trivial
  · next hx => exact h.threw st _ ht hf hx
  · next x hx =>
    refine Res.All.andThen (Q := fun s => T s.trace) ?_ fun s1 h1 => ?_
    · have hc : T ((st.push (.acqui st.model st.currentIteration)).push
          (.call x (f.call (st.push (.acqui st.model st.currentIteration)).trace x))).trace := by
        have := h.point st _ x (f.call (st.push (.acqui st.model st.currentIteration)).trace x) ht hf hx
        simpa [BoState.push] using this
      unfold evalAndAdd
      simp only
      split
      · exact hc
      · unfold addNewSample; split <;> exact hc
    · refine Res.All.andThen (Q := fun s => T s.trace) (updateStats_all _ _ _ _ _ fun logs _ => h.other _ (.stat s1.model) h1 trivial) fun s2 h2 => ?_
      refine Res.All.andThen (Q := fun s => T s.trace) ?_ fun s3 h3 => ?_
      · unfold boModelAdd
        split
        · exact withModel_all _ _ _ _ (fun m _ => h2) (fun m => h2)
        · trivial
      · refine Res.All.andThen (Q := fun s => T s.trace) ?_ fun s4 h4 => (show T s4.trace from h4)
        unfold boHp
        split
        · exact withModel_all _ _ _ _ (fun m _ => h.other _ _ h3 trivial) (fun m => h.other _ _ h3 trivial)
        · exact h3

theorem boLoop_traceT (h : TraceStep P D afun T) (f : StateFun α M) (hf : D f.dimIn) : ∀ (fuel : Nat) (st : BoState α M), T st.trace →
    (boLoop P f afun fuel st).All (fun s => T s.trace) (fun s => T s.trace) := by
  intro fuel
  induction fuel with
  | zero => intro st ht; trivial
  | succ n ih =>
    intro st ht
    have hstop : ∀ b st', boStop P afun st = some (b, st') → T st'.trace := by
      intro b st' hs'
      obtain ⟨as, rfl, has⟩ := boStop_spec hs'
      exact h.others ht as fun e he => by obtain ⟨j, a, rfl⟩ := has e he; trivial
    unfold boLoop
    split
    · trivial
    · next st' hs' => exact hstop _ _ hs'
    · next st' hs' => exact (boIteration_traceT h f hf st' (hstop _ _ hs')).andThen ih

theorem optimize_traceT (h : TraceStep P D afun T) (f : StateFun α M) (hf : D f.dimIn) (reset : Bool) (fuel : Nat) (st : BoState α M)
    (ht : T st.trace) : (optimize P f afun reset fuel st).All (fun s => T s.trace) (fun s => T s.trace) := by
  have hinit : T (initState reset st).trace := by
    have he : (initState reset st).trace = st.trace ++ [.start reset] := by cases reset <;> rfl
    rw [he]; exact h.other _ _ ht trivial
  unfold optimize
  refine Res.All.andThen (Q := fun s => T s.trace) ?_ ?_
  · rw [boInit_eq]
    split
    · split
      · exact evalAll_traceT h f _ _ hinit
      · trivial
    · exact hinit
  · intro s1 h1
    refine Res.All.andThen (Q := fun s => T s.trace) ?_ fun s2 h2 => boLoop_traceT h f hf fuel s2 h2
    unfold boModelInit
    split
    · exact h1
    · exact withModel_all _ _ _ _ (fun m _ => h1) (fun m => h1)

/-- every history keeps `T` -/
theorem runOps_traceT (h : TraceStep P D afun T) : ∀ (ops : List (BoOp α M)),
    (∀ f a r n, BoOp.optimize f a r n ∈ ops → a = afun ∧ D f.dimIn) → ∀ st st' : BoState α M, T st.trace → runOps P ops st = some st' → T st'.trace := by
  intro ops
  induction ops with
  | nil => intro _ st st' ht he; simp only [runOps, Option.some.injEq] at he; subst he; exact ht
  | cons o os ih =>
    intro ho st st' ht he
    have h1 : (runOp P o st).All (fun s => T s.trace) (fun s => T s.trace) := by
      cases o with
      | optimize f a r n =>
        obtain ⟨rfl, hD⟩ := ho f a r n (by simp)
        exact optimize_traceT h f hD r n st ht
      | addNewSample x v =>
        simp only [runOp, addNewSample]
        split <;> exact h.other _ _ ht trivial
      | evalAndAdd f x => exact evalAndAdd_traceT h f x st ht
    have ih' := ih fun f a r n hm => ho f a r n (by simp [hm])
    simp only [runOps] at he
    cases hr : runOp P o st with
    | ok q => rw [hr] at h1 he; exact ih' q st' h1 he
    | throw e q => rw [hr] at h1 he; exact ih' q st' h1 he
    | ub => rw [hr] at he; cases he
    | diverge => rw [hr] at he; cases he

/-- Every acquisition event is followed by the evaluation of the point the inner optimizer returned for it. -/
def Chosen (P : BoParams α M) (D : Nat → Prop) (afun : List α → α) (tr : List (Event α M)) : Prop :=
  ∀ pre g it rest, tr = pre ++ .acqui g it :: rest → ∃ q n x r post, rest = .call x r :: post ∧ q.model = g ∧ q.currentIteration = it ∧
    q.trace = pre ++ [.acqui g it] ∧ D n ∧ P.acquiOpt q (P.acqui g it afun) (P.startPt q n) P.bounded = .point x

theorem chosen_step (hnt : ∀ q f x b, P.acquiOpt q f x b ≠ .threw) : TraceStep P D afun (Chosen P D afun) where
  other tr e ht he := by
    intro pre g it rest heq
    rcases List.eq_nil_or_concat rest with rfl | ⟨rest', e', rfl⟩
    · have := List.append_inj_right' heq (by simp)
      simp only [List.cons.injEq, and_true] at this
      rw [this] at he; exact he.elim
    · have h2 : tr ++ [e] = (pre ++ .acqui g it :: rest') ++ [e'] := by rw [heq]; simp
      have h3 := List.append_inj_left' h2 (by simp)
      obtain ⟨q, n, x, r, post, hr, rest⟩ := ht pre g it rest' h3
      exact ⟨q, n, x, r, post ++ [e'], by rw [hr]; simp, rest⟩
  threw st n _ _ hx := absurd hx (hnt _ _ _ _)
  point st n x r ht hD hx := by
    intro pre g it rest heq
    rcases List.eq_nil_or_concat rest with rfl | ⟨rest', e', rfl⟩
    · have h2 : (st.trace ++ [.acqui st.model st.currentIteration]) ++ [.call x r] = pre ++ [.acqui g it] := by simpa using heq
      have := List.append_inj_right' h2 (by simp)
      simp at this
    · rcases List.eq_nil_or_concat rest' with rfl | ⟨rest'', e'', rfl⟩
      · have h2 : st.trace ++ [.acqui st.model st.currentIteration, .call x r] = pre ++ [.acqui g it, e'] := by simpa using heq
        have h3 := List.append_inj_right' h2 (by simp)
        have h4 := List.append_inj_left' h2 (by simp)
        simp only [List.cons.injEq, and_true, Event.acqui.injEq] at h3
        obtain ⟨⟨rfl, rfl⟩, rfl⟩ := h3
        subst h4
        exact ⟨st.push (.acqui st.model st.currentIteration), n, x, r, [], rfl, rfl, rfl, rfl, hD, hx⟩
      · have h2 : st.trace ++ [.acqui st.model st.currentIteration, .call x r] = (pre ++ .acqui g it :: rest'') ++ [e'', e'] := by simpa using heq
        have h4 := List.append_inj_left' h2 (by simp)
        obtain ⟨q, n, x, r, post, hr, rest⟩ := ht pre g it rest'' h4
        exact ⟨q, n, x, r, post ++ [e'', e'], by rw [hr]; simp, rest⟩

theorem chosen_nil : Chosen P D afun [] := by
  intro pre g it rest h; simp at h

end Limbo
