import Verif.Spec.Bo
import Verif.Basic.Scalar
import Mathlib.Data.List.Basic
import Mathlib.Tactic.SplitIfs

/-! Helper lemmas about the Bayesian-optimization loop. -/

namespace Limbo

set_option linter.unusedSectionVars false

variable {α M : Type}

/-- Postconditions for normal and exceptional termination. -/
def Res.All {σ : Type} (Q T : σ → Prop) : Res σ → Prop
  | .ok s => Q s
  | .throw _ s => T s
  | .ub => True
  | .diverge => True

theorem Res.All.andThen {σ : Type} {Q Q' T : σ → Prop} {r : Res σ} {f : σ → Res σ} (h : r.All Q T)
    (hf : ∀ s, Q s → (f s).All Q' T) : (r.andThen f).All Q' T := by
  cases r with
  | ok s => exact hf s h
  | throw e s => exact h
  | ub => trivial
  | diverge => trivial

theorem Res.All.mono {σ : Type} {Q Q' T T' : σ → Prop} {r : Res σ} (h : r.All Q T) (hq : ∀ s, Q s → Q' s) (ht : ∀ s, T s → T' s) :
    r.All Q' T' := by
  cases r with
  | ok s => exact hq s h
  | throw e s => exact ht s h
  | ub => trivial
  | diverge => trivial

theorem Res.andThen_ok {σ : Type} {r : Res σ} {f : σ → Res σ} {s' : σ} (h : r.andThen f = .ok s') :
    ∃ s, r = .ok s ∧ f s = .ok s' := by
  cases r with
  | ok s => exact ⟨s, rfl, h⟩
  | throw e s => simp [Res.andThen, Res.bind] at h
  | ub => simp [Res.andThen, Res.bind] at h
  | diverge => simp [Res.andThen, Res.bind] at h

theorem Res.andThen_throw {σ : Type} {r : Res σ} {f : σ → Res σ} {e : Exn} {s' : σ} (h : r.andThen f = .throw e s') :
    r = .throw e s' ∨ ∃ s, r = .ok s ∧ f s = .throw e s' := by
  cases r with
  | ok s => exact Or.inr ⟨s, rfl, h⟩
  | throw e s => simp [Res.andThen, Res.bind] at h; left; rw [h.1, h.2]
  | ub => simp [Res.andThen, Res.bind] at h
  | diverge => simp [Res.andThen, Res.bind] at h

variable [Scalar α]

theorem isNanOrInf_false (v : List α) : isNanOrInf v = false ↔ AllFinite v := by
  induction v with
  | nil => simp [isNanOrInf, AllFinite]
  | cons x xs ih =>
    simp only [isNanOrInf]
    by_cases h : (isInf x || isNaN x) = true
    · rw [if_pos h]
      simp only [Bool.true_eq_false, false_iff]
      intro hf
      have := hf x (by simp)
      simp [this.1, this.2] at h
    · rw [if_neg h, ih]
      simp only [Bool.or_eq_true, not_or, Bool.not_eq_true] at h
      simp [AllFinite, h.1, h.2]

theorem all_finite_iff (v : List α) : v.all (fun y => isFinite y) = true ↔ AllFinite v := by
  simp [AllFinite, isFinite]

theorem expect_append (tr : List (Event α M)) (e : Event α M) : expect (tr ++ [e]) = expectStep (expect tr) e := by
  simp [expect, expectFrom]

theorem expectFrom_append (acc : List (List α × List α)) (tr tr' : List (Event α M)) :
    expectFrom acc (tr ++ tr') = expectFrom (expectFrom acc tr) tr' := by
  simp [expectFrom]

/-- The stored data is what the events say. -/
structure DataInv (st : BoState α M) : Prop where
  len : st.samples.length = st.observations.length
  zip : st.samples.zip st.observations = expect st.trace
  fin : ∀ v ∈ st.observations, AllFinite v

/-- events that do not concern the data -/
def Event.neutral : Event α M → Prop
  | .start _ => False
  | .call _ _ => False
  | .given _ _ => False
  | _ => True

theorem expectStep_neutral (acc : List (List α × List α)) (e : Event α M) (h : e.neutral) : expectStep acc e = acc := by
  cases e <;> simp_all [Event.neutral, expectStep]

theorem DataInv.push {st : BoState α M} (h : DataInv st) (e : Event α M) (he : e.neutral) : DataInv (st.push e) :=
  ⟨h.len, by simp only [BoState.push]; rw [expect_append, expectStep_neutral _ _ he]; exact h.zip, h.fin⟩

/-- `add_new_sample` when the event announcing the pair is already in the trace. -/
theorem addNewSample_inv (s v : List α) (st : BoState α M) (hlen : st.samples.length = st.observations.length)
    (hfin : ∀ v ∈ st.observations, AllFinite v)
    (hzip : expect st.trace = if v.all (fun y => isFinite y) then st.samples.zip st.observations ++ [(s, v)]
      else st.samples.zip st.observations) :
    (addNewSample s v st).All DataInv DataInv := by
  unfold addNewSample
  by_cases hv : isNanOrInf v = true
  · rw [if_pos hv]
    have : ¬ (v.all (fun y => isFinite y) = true) := by
      rw [all_finite_iff, ← isNanOrInf_false, hv]; simp
    rw [if_neg this] at hzip
    exact ⟨hlen, hzip.symm, hfin⟩
  · rw [if_neg hv]
    have hf : AllFinite v := (isNanOrInf_false v).1 (by simpa using hv)
    rw [if_pos ((all_finite_iff v).2 hf)] at hzip
    refine ⟨by simp [hlen], ?_, ?_⟩
    · simp only
      rw [hzip, List.zip_append hlen]; rfl
    · intro w hw
      simp only [List.mem_append, List.mem_singleton] at hw
      rcases hw with hw | rfl
      · exact hfin w hw
      · exact hf

theorem evalAndAdd_inv (f : StateFun α M) (x : List α) (st : BoState α M) (h : DataInv st) :
    (evalAndAdd f x st).All DataInv DataInv := by
  unfold evalAndAdd
  simp only
  split
  · next hr =>
    refine ⟨h.len, ?_, h.fin⟩
    simp only [BoState.push]
    rw [expect_append, hr]
    exact h.zip
  · next v hr =>
    refine addNewSample_inv x v _ h.len h.fin ?_
    simp only [BoState.push]
    rw [expect_append, ← h.zip, hr]
    rfl

theorem evalAll_inv (f : StateFun α M) (pts : List (List α)) : ∀ st : BoState α M, DataInv st →
    (evalAll f pts st).All DataInv DataInv := by
  induction pts with
  | nil => intro st h; exact h
  | cons x xs ih => intro st h; exact (evalAndAdd_inv f x st h).andThen ih

theorem boInit_inv (P : BoParams α M) (f : StateFun α M) (reset : Bool) (st : BoState α M) (h : DataInv st) :
    (boInit P f reset (st.push (.start reset))).All DataInv DataInv := by
  have h0 : DataInv (if reset then { st.push (.start reset) with currentIteration := 0, totalIterations := 0, samples := [], observations := [] }
      else { st.push (.start reset) with currentIteration := 0 }) := by
    cases reset
    · simp only [Bool.false_eq_true, if_false]
      refine ⟨h.len, ?_, h.fin⟩
      simp only [BoState.push]; rw [expect_append]; exact h.zip
    · simp only [if_true]
      refine ⟨rfl, ?_, by simp⟩
      simp only [BoState.push]; rw [expect_append]; rfl
  unfold boInit
  simp only
  cases reset
  · simp only [Bool.false_eq_true, if_false] at h0 ⊢
    split
    · split
      · exact evalAll_inv f _ _ h0
      · trivial
    · exact h0
  · simp only [if_true] at h0 ⊢
    split
    · exact evalAll_inv f _ _ h0
    · trivial

/-- Changes that do not touch the data or add data events. -/
theorem DataInv.of_eq {st st' : BoState α M} (h : DataInv st) (h1 : st'.samples = st.samples) (h2 : st'.observations = st.observations)
    (h3 : st'.trace = st.trace) : DataInv st' :=
  ⟨by rw [h1, h2]; exact h.len, by rw [h1, h2, h3]; exact h.zip, by rw [h2]; exact h.fin⟩

theorem withModel_all (st : BoState α M) (r : Res M) (Q T : BoState α M → Prop)
    (hq : ∀ m, r = .ok m → Q { st with model := m }) (ht : ∀ m, T { st with model := m }) : (withModel st r).All Q T := by
  cases r with
  | ok m => exact hq m rfl
  | throw e m => exact ht m
  | ub => trivial
  | diverge => trivial

theorem boModelInit_inv (P : BoParams α M) (f : StateFun α M) (st : BoState α M) (h : DataInv st) :
    (boModelInit P f st).All DataInv DataInv := by
  unfold boModelInit
  split
  · exact h.of_eq rfl rfl rfl
  · exact withModel_all _ _ _ _ (fun m _ => h.of_eq rfl rfl rfl) (fun m => h.of_eq rfl rfl rfl)

/-- the events added by consulting the criteria -/
theorem chainCriteria_spec (st : BoState α M) (afun : List α → α) : ∀ (cs : List (Criterion α M)) (k : Nat) (b : Bool)
    (tr : List (Event α M)) (b' : Bool) (tr' : List (Event α M)), chainCriteria st afun cs k b tr = some (b', tr') →
    ∃ as : List (Event α M), tr' = tr ++ as ∧ ∀ e ∈ as, ∃ j a, e = .asked j a := by
  intro cs
  induction cs with
  | nil => intro k b tr b' tr' h; simp only [chainCriteria, Option.some.injEq, Prod.mk.injEq] at h; exact ⟨[], by simp [h.2]⟩
  | cons c cs ih =>
    intro k b tr b' tr' h
    simp only [chainCriteria] at h
    by_cases hb : b = true
    · rw [if_pos hb] at h; exact ih _ _ _ _ _ h
    · rw [if_neg hb] at h
      cases hc : c st afun with
      | none => rw [hc] at h; simp at h
      | some a =>
        rw [hc] at h
        obtain ⟨as, h1, h2⟩ := ih _ _ _ _ _ h
        refine ⟨.asked k a :: as, by rw [h1]; simp, ?_⟩
        intro e he
        rcases List.mem_cons.1 he with rfl | he
        · exact ⟨k, a, rfl⟩
        · exact h2 e he

theorem boStop_spec {P : BoParams α M} {afun : List α → α} {st : BoState α M} {b : Bool} {st' : BoState α M}
    (h : boStop P afun st = some (b, st')) :
    ∃ as : List (Event α M), st' = { st with trace := st.trace ++ as } ∧ ∀ e ∈ as, ∃ j a, e = .asked j a := by
  unfold boStop at h
  cases hc : chainCriteria st afun P.stop 0 false st.trace with
  | none => rw [hc] at h; simp at h
  | some p =>
    rw [hc] at h
    simp only [Option.some.injEq, Prod.mk.injEq] at h
    obtain ⟨as, h1, h2⟩ := chainCriteria_spec st afun P.stop 0 false st.trace p.1 p.2 hc
    exact ⟨as, by rw [← h.2, h1], h2⟩

theorem expectFrom_asked (acc : List (List α × List α)) (as : List (Event α M)) (h : ∀ e ∈ as, ∃ j a, e = .asked j a) :
    expectFrom acc as = acc := by
  induction as generalizing acc with
  | nil => rfl
  | cons e es ih =>
    obtain ⟨j, a, rfl⟩ := h e (by simp)
    exact ih acc (fun e he => h e (by simp [he]))

theorem boStop_inv {P : BoParams α M} {afun : List α → α} {st : BoState α M} {b : Bool} {st' : BoState α M}
    (h : boStop P afun st = some (b, st')) (hi : DataInv st) : DataInv st' := by
  obtain ⟨as, rfl, has⟩ := boStop_spec h
  refine ⟨hi.len, ?_, hi.fin⟩
  simp only [expect]
  rw [expectFrom_append, expectFrom_asked _ _ has]
  exact hi.zip

theorem updateStats_all (P : BoParams α M) (afun : List α → α) (st : BoState α M) (Q T : BoState α M → Prop)
    (h : ∀ logs, (if P.statsEnabled then refreshStats (st.push (.stat st.model)) afun P.stats st.logs = some logs else logs = st.logs) →
      Q { st.push (.stat st.model) with logs := logs }) :
    (updateStats P afun st).All Q T := by
  unfold updateStats
  simp only
  by_cases hs : P.statsEnabled = true
  · rw [if_pos hs]
    split
    · next logs hl => exact h logs (by rw [if_pos hs]; exact hl)
    · trivial
  · rw [if_neg hs]
    exact h st.logs (by rw [if_neg hs])

theorem boModelAdd_all (P : BoParams α M) (st : BoState α M) (Q T : BoState α M → Prop)
    (hq : ∀ s v m, st.samples.getLast? = some s → st.observations.getLast? = some v → P.ops.addSample s v st.model = .ok m →
      Q { st with model := m }) (ht : ∀ m, T { st with model := m }) : (boModelAdd P st).All Q T := by
  unfold boModelAdd
  split
  · next s v h1 h2 => exact withModel_all _ _ _ _ (fun m hm => hq s v m h1 h2 hm) ht
  · trivial

theorem boHp_all (P : BoParams α M) (st : BoState α M) (Q T : BoState α M → Prop)
    (hq : ∀ m, (0 < P.hpPeriod ∧ (st.currentIteration + 1).tmod P.hpPeriod = 0) → P.ops.optHp st.model = .ok m →
      Q { st.push (.hp st.model) with model := m })
    (ht : ∀ m, T { st.push (.hp st.model) with model := m })
    (hs : ¬ (0 < P.hpPeriod ∧ (st.currentIteration + 1).tmod P.hpPeriod = 0) → Q st) : (boHp P st).All Q T := by
  unfold boHp
  by_cases h : 0 < P.hpPeriod ∧ (st.currentIteration + 1).tmod P.hpPeriod = 0
  · rw [if_pos h]; exact withModel_all _ _ _ _ (fun m hm => hq m h hm) ht
  · rw [if_neg h]; exact hs h

theorem boIteration_inv (P : BoParams α M) (f : StateFun α M) (afun : List α → α) (st : BoState α M) (h : DataInv st) :
    (boIteration P f afun st).All DataInv DataInv := by
  have h0 : DataInv (st.push (.acqui st.model st.currentIteration)) := h.push _ (by simp [Event.neutral])
  unfold boIteration
  simp only
  split
  · trivial
  · exact h0
  · next x hx =>
    refine (evalAndAdd_inv f x _ h0).andThen ?_
    intro s1 h1
    refine Res.All.andThen (Q := DataInv) (updateStats_all _ _ _ _ _ fun logs _ => (h1.push (.stat s1.model) (by simp [Event.neutral])).of_eq rfl rfl rfl) ?_
    intro s2 h2
    refine Res.All.andThen (Q := DataInv) (boModelAdd_all _ _ _ _ (fun _ _ m _ _ _ => h2.of_eq rfl rfl rfl) (fun m => h2.of_eq rfl rfl rfl)) ?_
    intro s3 h3
    have h3' := h3.push (.hp s3.model) (by simp [Event.neutral])
    refine Res.All.andThen (Q := DataInv) (boHp_all _ _ _ _ (fun m _ _ => h3'.of_eq rfl rfl rfl) (fun m => h3'.of_eq rfl rfl rfl) (fun _ => h3)) ?_
    intro s4 h4
    exact h4.of_eq rfl rfl rfl

theorem boLoop_inv (P : BoParams α M) (f : StateFun α M) (afun : List α → α) : ∀ (fuel : Nat) (st : BoState α M), DataInv st →
    (boLoop P f afun fuel st).All DataInv DataInv := by
  intro fuel
  induction fuel with
  | zero => intro st h; trivial
  | succ n ih =>
    intro st h
    unfold boLoop
    split
    · trivial
    · next st' hs => exact boStop_inv hs h
    · next st' hs => exact (boIteration_inv P f afun st' (boStop_inv hs h)).andThen ih

theorem optimize_inv (P : BoParams α M) (f : StateFun α M) (afun : List α → α) (reset : Bool) (fuel : Nat) (st : BoState α M)
    (h : DataInv st) : (optimize P f afun reset fuel st).All DataInv DataInv := by
  unfold optimize
  exact (boInit_inv P f reset st h).andThen fun s1 h1 => (boModelInit_inv P f s1 h1).andThen fun s2 h2 => boLoop_inv P f afun fuel s2 h2

theorem runOp_inv (P : BoParams α M) (op : BoOp α M) (st : BoState α M) (h : DataInv st) : (runOp P op st).All DataInv DataInv := by
  cases op with
  | optimize f afun reset fuel => exact optimize_inv P f afun reset fuel st h
  | addNewSample s v =>
    refine addNewSample_inv s v _ h.len h.fin ?_
    simp only [BoState.push]
    rw [expect_append, ← h.zip]
    rfl
  | evalAndAdd f x => exact evalAndAdd_inv f x st h

theorem newBo_inv (P : BoParams α M) (c : Int) (m : M) : DataInv (newBo P c m : BoState α M) :=
  ⟨rfl, rfl, by simp [newBo]⟩

/-- Lift an invariant of single calls to histories. -/
theorem runOps_inv {P : BoParams α M} {I : BoState α M → Prop} (hop : ∀ op st, I st → (runOp P op st).All I I) :
    ∀ (ops : List (BoOp α M)) (st st' : BoState α M), I st → runOps P ops st = some st' → I st' := by
  intro ops
  induction ops with
  | nil => intro st st' h heq; simp only [runOps, Option.some.injEq] at heq; rw [← heq]; exact h
  | cons op ops ih =>
    intro st st' h heq
    have := hop op st h
    simp only [runOps] at heq
    cases hr : runOp P op st with
    | ok s => rw [hr] at heq this; exact ih s st' this heq
    | throw e s => rw [hr] at heq this; exact ih s st' this heq
    | ub => rw [hr] at heq; simp at heq
    | diverge => rw [hr] at heq; simp at heq

/-! ## Inversion of a normal iteration -/

theorem evalAndAdd_ok {f : StateFun α M} {x : List α} {st st' : BoState α M} (h : evalAndAdd f x st = .ok st') :
    ∃ v, f.call st.trace x = .ret v ∧ AllFinite v ∧
      st' = { st with samples := st.samples ++ [x], observations := st.observations ++ [v], trace := st.trace ++ [.call x (.ret v)] } := by
  unfold evalAndAdd at h
  simp only at h
  split at h
  · simp at h
  · next v hr =>
    unfold addNewSample at h
    by_cases hv : isNanOrInf v = true
    · rw [if_pos hv] at h; simp at h
    · rw [if_neg hv] at h
      simp only [Res.ok.injEq] at h
      refine ⟨v, hr, (isNanOrInf_false v).1 (by simpa using hv), ?_⟩
      rw [← h, hr]; rfl

/-- condition for optimizing the hyper-parameters in an iteration -/
abbrev hpDue (P : BoParams α M) (c : Int) : Prop := 0 < P.hpPeriod ∧ (c + 1).tmod P.hpPeriod = 0

theorem boIteration_ok {P : BoParams α M} {f : StateFun α M} {afun : List α → α} {st st' : BoState α M}
    (h : boIteration P f afun st = .ok st') :
    ∃ x v m1 m2 logs,
      P.acquiOpt (st.push (.acqui st.model st.currentIteration)) (fun y g => P.acqui st.model st.currentIteration afun y g)
        (P.startPt (st.push (.acqui st.model st.currentIteration)) f.dimIn) P.bounded = .point x ∧
      AllFinite v ∧ P.ops.addSample x v st.model = .ok m1 ∧
      (if hpDue P st.currentIteration then P.ops.optHp m1 = .ok m2 else m2 = m1) ∧
      (if P.statsEnabled then
        refreshStats { st with samples := st.samples ++ [x], observations := st.observations ++ [v], trace := st.trace ++ [.acqui st.model st.currentIteration, .call x (.ret v), .stat st.model] }
          afun P.stats st.logs = some logs else logs = st.logs) ∧
      st' = { samples := st.samples ++ [x], observations := st.observations ++ [v], currentIteration := st.currentIteration + 1,
              totalIterations := st.totalIterations + 1, model := m2, logs := logs,
              trace := st.trace ++ ([.acqui st.model st.currentIteration, .call x (.ret v), .stat st.model] ++
                (if hpDue P st.currentIteration then [.hp m1] else [])) } := by
  unfold boIteration at h
  simp only at h
  split at h
  · simp at h
  · simp at h
  · next x hx =>
    obtain ⟨s1, h1, h⟩ := Res.andThen_ok h
    obtain ⟨s2, h2, h⟩ := Res.andThen_ok h
    obtain ⟨s3, h3, h⟩ := Res.andThen_ok h
    obtain ⟨s4, h4, hend⟩ := Res.andThen_ok h
    obtain ⟨v, -, hfin, rfl⟩ := evalAndAdd_ok h1
    simp only [BoState.push] at h2
    -- stats
    have hst : ∃ logs, (if P.statsEnabled then
        refreshStats { st with samples := st.samples ++ [x], observations := st.observations ++ [v], trace := st.trace ++ [.acqui st.model st.currentIteration, .call x (.ret v), .stat st.model] }
          afun P.stats st.logs = some logs else logs = st.logs) ∧
        s2 = { st with samples := st.samples ++ [x], observations := st.observations ++ [v], trace := st.trace ++ [.acqui st.model st.currentIteration, .call x (.ret v), .stat st.model], logs := logs } := by
      unfold updateStats at h2
      simp only [BoState.push, List.append_assoc, List.cons_append, List.nil_append] at h2
      by_cases hs : P.statsEnabled = true
      · rw [if_pos hs] at h2
        simp only [hs, if_true]
        split at h2
        · next logs hl =>
          simp only [Res.ok.injEq] at h2
          exact ⟨logs, hl, h2.symm⟩
        · simp at h2
      · rw [if_neg hs] at h2
        simp only [Res.ok.injEq] at h2
        exact ⟨st.logs, by rw [if_neg hs], by rw [← h2]⟩
    obtain ⟨logs, hlogs, rfl⟩ := hst
    have hadd : ∃ m1, P.ops.addSample x v st.model = .ok m1 ∧ s3 = { st with samples := st.samples ++ [x], observations := st.observations ++ [v], trace := st.trace ++ [.acqui st.model st.currentIteration, .call x (.ret v), .stat st.model], logs := logs, model := m1 } := by
      unfold boModelAdd at h3
      simp only [List.getLast?_append, List.getLast?_singleton, Option.some_or] at h3
      cases hm : P.ops.addSample x v st.model with
      | ok m =>
        rw [hm] at h3
        simp only [withModel, Res.bind, Res.ok.injEq] at h3
        exact ⟨m, rfl, h3.symm⟩
      | throw e m => rw [hm] at h3; simp [withModel, Res.bind] at h3
      | ub => rw [hm] at h3; simp [withModel, Res.bind] at h3
      | diverge => rw [hm] at h3; simp [withModel, Res.bind] at h3
    obtain ⟨m1, hm1, rfl⟩ := hadd
    unfold boHp at h4
    simp only at h4
    by_cases hd : hpDue P st.currentIteration
    · rw [if_pos hd] at h4
      simp only [BoState.push] at h4
      cases hm : P.ops.optHp m1 with
      | ok m2 =>
        rw [hm] at h4
        simp only [withModel, Res.bind, Res.ok.injEq] at h4
        refine ⟨x, v, m1, m2, logs, hx, hfin, hm1, by rw [if_pos hd]; exact hm, hlogs, ?_⟩
        rw [if_pos hd]
        have hend := Res.ok.inj hend
        rw [← hend, ← h4]
        simp [List.append_assoc]
      | throw e m => rw [hm] at h4; simp [withModel, Res.bind] at h4
      | ub => rw [hm] at h4; simp [withModel, Res.bind] at h4
      | diverge => rw [hm] at h4; simp [withModel, Res.bind] at h4
    · rw [if_neg hd] at h4
      simp only [Res.ok.injEq] at h4
      refine ⟨x, v, m1, m1, logs, hx, hfin, hm1, by rw [if_neg hd], hlogs, ?_⟩
      rw [if_neg hd]
      have hend := Res.ok.inj hend
      rw [← hend, ← h4]
      simp [List.append_assoc]

end Limbo
