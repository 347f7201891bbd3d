import Verif.Lemmas.Multi2

/-! Invariants of the multi-objective optimizers over all call histories. -/

namespace Limbo

set_option linter.unusedSectionVars false

variable {α M : Type} [Scalar α]

/-- `I` is kept by everything an optimizer does, evaluations being made at points satisfying `B` only -/
structure MuInv (P : MuParams α M) (B : List α → Prop) (I : BoState α (MM α M) → Prop) : Prop where
  eval : ∀ (f : StateFun α (MM α M)) x st, B x → I st → (evalAndAdd f x st).All I I
  models : ∀ st ms, I st → I { st with model := { st.model with models := ms } }
  pmodel : ∀ st ea dim, P.sferes = some ea → I st → I { st with model := { st.model with
    paretoModel := (ea st dim).map fun p => (p.1, p.2, st.model.models.map fun m => P.sigma m p.1) } }
  pdata : ∀ st r, I st → I { st with model := { st.model with paretoData := r } }
  stats : ∀ st logs, I st → I { st.push (.stat st.model) with logs := logs }
  stop : ∀ afun b st st', boStop P.bo afun st = some (b, st') → I st → I st'
  count : ∀ st, I st → I { st with currentIteration := st.currentIteration + 1, totalIterations := st.totalIterations + 1 }

variable {P : MuParams α M} {B : List α → Prop} {I : BoState α (MM α M) → Prop}

theorem MuInv.updateParetoModel (hI : MuInv P B I) (dim : Nat) {st : BoState α (MM α M)} (h : I st) :
    (Limbo.updateParetoModel P dim st).All I I := by
  unfold Limbo.updateParetoModel
  refine Res.All.andThen (Q := I) (updateModels_all P st _ _ (fun ms => hI.models st ms h) (fun ms => hI.models st ms h)) fun s hs => ?_
  cases he : P.sferes with
  | none => exact hs
  | some ea => exact hI.pmodel s ea dim he hs

theorem MuInv.updateParetoData (hI : MuInv P B I) {st : BoState α (MM α M)} (h : I st) : (Limbo.updateParetoData P st).All I I :=
  updateParetoData_all P st _ _ fun r => hI.pdata st r h

theorem MuInv.muFinish (hI : MuInv P B I) (f : StateFun α (MM α M)) (afun : List α → α) (b : Bool) {x : List α} (hx : B x)
    {st : BoState α (MM α M)} (h : I st) : (Limbo.muFinish P f afun b x st).All I I := by
  unfold Limbo.muFinish
  refine Res.All.andThen (Q := I) (hI.eval f x st hx h) fun s hs => ?_
  refine Res.All.andThen (Q := I) ?_ fun s2 hs2 => ?_
  · split
    · trivial
    · exact hs
  refine Res.All.andThen (Q := I) (updateStats_all P.bo afun s2 _ _ fun logs _ => hI.stats s2 logs hs2) fun s3 hs3 => ?_
  exact hI.count s3 hs3

theorem MuInv.muBody (hI : MuInv P B I) (k : MuKind) (f : StateFun α (MM α M)) (afun : List α → α)
    (hpick : ∀ st x, I st → (k = .ehvi ∧ ehviPick P st = .point x) ∨
      (k = .nsbo ∧ ∃ pv best, callPset P 2 (fun p => p.2.2) st st.model.paretoModel = some pv ∧ best ∈ pv ∧ best.1 = x) → B x)
    {st : BoState α (MM α M)} (h : I st) : (Limbo.muBody k P f afun st).All I I := by
  cases k with
  | ehvi =>
    show (ehviIteration P f afun st).All I I
    unfold ehviIteration
    refine Res.All.andThen (Q := I) (hI.updateParetoModel _ h) fun s1 h1 => ?_
    refine Res.All.andThen (Q := I) (hI.updateParetoData h1) fun s2 h2 => ?_
    cases hp : ehviPick P s2 with
    | ub => trivial
    | threw => exact h2
    | point x => exact hI.muFinish f afun false (hpick s2 x h2 (Or.inl ⟨rfl, hp⟩)) h2
  | nsbo =>
    show (nsboIteration P f afun st).All I I
    unfold nsboIteration
    refine Res.All.andThen (Q := I) (hI.updateParetoModel _ h) fun s1 h1 => ?_
    cases hp : callPset P 2 (fun p => p.2.2) s1 s1.model.paretoModel with
    | none => trivial
    | some pv =>
      simp only
      cases hb : pv[P.rand s1 % pv.length]? with
      | none => trivial
      | some best => exact hI.muFinish f afun true (hpick s1 best.1 h1 (Or.inr ⟨rfl, pv, best, hp, List.mem_of_getElem? hb, rfl⟩)) h1

theorem MuInv.muLoop (hI : MuInv P B I) {body : BoState α (MM α M) → Res (BoState α (MM α M))} (hb : ∀ st, I st → (body st).All I I)
    (afun : List α → α) : ∀ (fuel : Nat) (st : BoState α (MM α M)), I st → (Limbo.muLoop P body afun fuel st).All I I := by
  intro fuel
  induction fuel with
  | zero => intro st h; trivial
  | succ fuel ih =>
    intro st h
    simp only [Limbo.muLoop]
    split
    · exact Res.All.andThen (Q := I) (hb st h) ih
    · split
      · trivial
      · next s hs => exact hI.stop afun _ _ _ hs h
      · next s hs => exact Res.All.andThen (Q := I) (hb s (hI.stop afun _ _ _ hs h)) ih

theorem MuInv.muOptimize (hI : MuInv P B I) (k : MuKind) (f : StateFun α (MM α M)) (afun : List α → α) (reset : Bool) (fuel : Nat)
    (hpick : ∀ st x, I st → (k = .ehvi ∧ ehviPick P st = .point x) ∨
      (k = .nsbo ∧ ∃ pv best, callPset P 2 (fun p => p.2.2) st st.model.paretoModel = some pv ∧ best ∈ pv ∧ best.1 = x) → B x)
    {st : BoState α (MM α M)} (h : (boInit P.bo f reset (st.push (.start reset))).All I I) :
    (Limbo.muOptimize k P f afun reset fuel st).All I I := by
  unfold Limbo.muOptimize
  exact Res.All.andThen (Q := I) h fun s hs => hI.muLoop (fun st hst => hI.muBody k f afun hpick hst) afun fuel s hs

/-- lift to histories -/
theorem muOps_inv (hop : ∀ op st, I st → (muOp P op st).All I I) : ∀ (ops : List (MuOp α M)) (st st' : BoState α (MM α M)), I st →
    muOps P ops st = some st' → I st' := by
  intro ops
  induction ops with
  | nil =>
    intro st st' h hs
    simp only [muOps, Option.some.injEq] at hs
    exact hs ▸ h
  | cons op ops ih =>
    intro st st' h hs
    simp only [muOps] at hs
    have := hop op st h
    cases hr : muOp P op st with
    | ok s => rw [hr] at hs this; exact ih s st' this hs
    | throw e s => rw [hr] at hs this; exact ih s st' this hs
    | ub => rw [hr] at hs; simp at hs
    | diverge => rw [hr] at hs; simp at hs

/-! ## the data -/

theorem muInv_data (P : MuParams α M) : MuInv P (fun _ => True) DataInv where
  eval := fun f x st _ h => evalAndAdd_inv f x st h
  models := fun _ _ h => h.of_eq rfl rfl rfl
  pmodel := fun _ _ _ _ h => h.of_eq rfl rfl rfl
  pdata := fun _ _ h => h.of_eq rfl rfl rfl
  stats := fun st _ h => (h.push (.stat st.model) trivial).of_eq rfl rfl rfl
  stop := fun _ _ _ _ hs h => boStop_inv hs h
  count := fun _ h => h.of_eq rfl rfl rfl

theorem muOp_data (P : MuParams α M) (op : MuOp α M) (st : BoState α (MM α M)) (h : DataInv st) : (muOp P op st).All DataInv DataInv := by
  cases op with
  | optimize k f afun reset fuel =>
    exact (muInv_data P).muOptimize k f afun reset fuel (fun _ _ _ _ => trivial) (boInit_inv P.bo f reset st h)
  | addNewSample s v =>
    refine addNewSample_inv s v _ h.len h.fin ?_
    simp only [BoState.push]
    rw [expect_append, ← h.zip]
    rfl
  | evalAndAdd f x => exact evalAndAdd_inv f x st h
  | updateParetoData => exact (muInv_data P).updateParetoData h
  | updateParetoModel d => exact (muInv_data P).updateParetoModel d h

/-! ## the model component -/

theorem Res.All.and {σ : Type} {r : Res σ} {Q T Q' T' : σ → Prop} (h : r.All Q T) (h' : r.All Q' T') :
    r.All (fun s => Q s ∧ Q' s) (fun s => T s ∧ T' s) := by
  cases r with
  | ok s => exact ⟨h, h'⟩
  | throw e s => exact ⟨h, h'⟩
  | ub => trivial
  | diverge => trivial

theorem evalAndAdd_model {N : Type} (f : StateFun α N) (x : List α) (st : BoState α N) :
    (evalAndAdd f x st).All (fun s => s.model = st.model) (fun s => s.model = st.model) := by
  unfold evalAndAdd
  simp only
  split
  · rfl
  · unfold addNewSample
    split <;> rfl

theorem evalAll_model {N : Type} (f : StateFun α N) : ∀ (pts : List (List α)) (st : BoState α N),
    (evalAll f pts st).All (fun s => s.model = st.model) (fun s => s.model = st.model)
  | [], st => rfl
  | x :: xs, st => by
    show ((evalAndAdd f x st).andThen (evalAll f xs)).All _ _
    refine Res.All.andThen (Q := fun s => s.model = st.model) (evalAndAdd_model f x st) fun s hs => ?_
    rw [← hs]
    exact evalAll_model f xs s

theorem boInit_model {N : Type} (Q : BoParams α N) (f : StateFun α N) (reset : Bool) (st : BoState α N) :
    (boInit Q f reset (st.push (.start reset))).All (fun s => s.model = st.model) (fun s => s.model = st.model) := by
  have h0 : (initState reset st).model = st.model := by cases reset <;> rfl
  rw [boInit_eq]
  split
  · split
    · rw [← h0]; exact evalAll_model f _ _
    · trivial
  · exact h0

theorem muInv_pmodel (P : MuParams α M) (A : PPoint α → Prop)
    (hA : ∀ ea, P.sferes = some ea → ∀ st dim, ∀ p ∈ ea st dim, A (p.1, p.2, st.model.models.map fun m => P.sigma m p.1)) :
    MuInv P (fun _ => True) (fun st => ∀ p ∈ st.model.paretoModel, A p) where
  eval := fun f x st _ h => by
    have := evalAndAdd_model f x st
    exact this.mono (fun s hs => by rw [hs]; exact h) (fun s hs => by rw [hs]; exact h)
  models := fun _ _ h => h
  pmodel := fun st ea dim he h => by
    intro p hp
    simp only [List.mem_map] at hp
    obtain ⟨q, hq, rfl⟩ := hp
    exact hA ea he st dim q hq
  pdata := fun _ _ h => h
  stats := fun st _ h => h
  stop := fun _ _ _ _ hs h => by
    obtain ⟨as, rfl, -⟩ := boStop_spec hs
    exact h
  count := fun _ h => h

theorem muOp_pmodel (P : MuParams α M) (A : PPoint α → Prop)
    (hA : ∀ ea, P.sferes = some ea → ∀ st dim, ∀ p ∈ ea st dim, A (p.1, p.2, st.model.models.map fun m => P.sigma m p.1)) (op : MuOp α M)
    (st : BoState α (MM α M)) (h : ∀ p ∈ st.model.paretoModel, A p) :
    (muOp P op st).All (fun st => ∀ p ∈ st.model.paretoModel, A p) (fun st => ∀ p ∈ st.model.paretoModel, A p) := by
  have hI := muInv_pmodel P A hA
  cases op with
  | optimize k f afun reset fuel =>
    refine hI.muOptimize k f afun reset fuel (fun _ _ _ _ => trivial) ?_
    exact (boInit_model P.bo f reset st).mono (fun s hs => by rw [hs]; exact h) (fun s hs => by rw [hs]; exact h)
  | addNewSample s v =>
    show (addNewSample s v _).All _ _
    unfold addNewSample
    split
    · exact h
    · exact h
  | evalAndAdd f x => exact hI.eval f x st trivial h
  | updateParetoData => exact hI.updateParetoData h
  | updateParetoModel d => exact hI.updateParetoModel d h

/-! ## the points evaluated -/

theorem muInv_points (P : MuParams α M) (B : List α → Prop) (st0 : BoState α (MM α M)) (A : PPoint α → Prop)
    (hA : ∀ ea, P.sferes = some ea → ∀ st dim, ∀ p ∈ ea st dim, A (p.1, p.2, st.model.models.map fun m => P.sigma m p.1)) :
    MuInv P B (fun st => Grows B st0 st ∧ ∀ p ∈ st.model.paretoModel, A p) where
  eval := fun f x st hx h => (evalAndAdd_grows f x hx st h.1).and ((muInv_pmodel P A hA).eval f x st trivial h.2)
  models := fun st ms h => ⟨h.1.of_trace rfl, (muInv_pmodel P A hA).models st ms h.2⟩
  pmodel := fun st ea dim he h => ⟨h.1.of_trace rfl, (muInv_pmodel P A hA).pmodel st ea dim he h.2⟩
  pdata := fun st r h => ⟨h.1.of_trace rfl, h.2⟩
  stats := fun st logs h => ⟨(h.1.push (.stat st.model) trivial).of_trace rfl, h.2⟩
  stop := fun afun b st st' hs h => ⟨boStop_grows hs h.1, (muInv_pmodel P A hA).stop afun b st st' hs h.2⟩
  count := fun st h => ⟨h.1.of_trace rfl, h.2⟩

theorem boInit_grows' {N : Type} {B : List α → Prop} (Q : BoParams α N) (f : StateFun α N) (reset : Bool)
    (hinit : ∀ (st : BoState α N) pts, Q.initPts st f.dimIn = some pts → ∀ x ∈ pts, B x) (st : BoState α N) :
    (boInit Q f reset (st.push (.start reset))).All (Grows B (st.push (.start reset))) (Grows B (st.push (.start reset))) := by
  have h0 : Grows B (st.push (.start reset)) (initState reset st) := (Grows.refl B _).of_trace (by cases reset <;> rfl)
  rw [boInit_eq]
  split
  · split
    · next pts hp => exact evalAll_grows f pts (hinit _ pts hp) _ h0
    · trivial
  · exact h0

theorem callPts_grows {N : Type} {B : List α → Prop} : ∀ {seg : List (Event α N)}, (∀ e ∈ seg, InnerEvent B e) → ∀ x ∈ callPts seg, B x
  | [], _, x, hx => by simp [callPts] at hx
  | e :: es, h, x, hx => by
    have ih := callPts_grows (fun e he => h e (List.mem_cons_of_mem _ he)) x
    have he := h e (by simp)
    cases e with
    | call y r =>
      simp only [callPts, List.mem_cons] at hx
      rcases hx with rfl | hx
      · exact he
      · exact ih hx
    | _ => exact ih hx

/-! ## `pareto_set` can be computed -/

/-- insertion into a list sorted by descending lexicographic order -/
def insLex {T : Type} (obj : T → List α) (x : T) : List T → List T
  | [] => [x]
  | y :: ys => if lexBefore (obj y) (obj x) then y :: insLex obj x ys else x :: y :: ys

/-- insertion sort of the non-dominated elements -/
def psetOf {T : Type} (obj : T → List α) (v : List T) : List T :=
  (v.filter fun x => nonDominated obj (obj x) v).foldr (insLex obj) []

theorem insLex_perm {T : Type} (obj : T → List α) (x : T) : ∀ l : List T, (insLex obj x l).Perm (x :: l)
  | [] => .refl _
  | y :: ys => by
    simp only [insLex]
    split
    · exact ((insLex_perm obj x ys).cons y).trans (.swap x y ys)
    · exact .refl _

theorem insLex_sorted {T : Type} [LawfulCmp α] {d : Nat} (obj : T → List α) (x : T) (hx : GoodObjs d (obj x)) : ∀ l : List T,
    (∀ y ∈ l, GoodObjs d (obj y)) → SortedFor (fun x y => lexBefore (obj x) (obj y)) l →
    SortedFor (fun x y => lexBefore (obj x) (obj y)) (insLex obj x l)
  | [], _, _ => by simp [insLex, SortedFor]
  | y :: ys, hg, h => by
    unfold SortedFor at h ⊢
    rw [List.pairwise_cons] at h
    simp only [insLex]
    split
    · next hyx =>
      rw [List.pairwise_cons]
      refine ⟨fun z hz => ?_, insLex_sorted obj x hx ys (fun z hz => hg z (by simp [hz])) h.2⟩
      rcases List.mem_cons.mp ((insLex_perm obj x ys).mem_iff.mp hz) with rfl | hz
      · exact lexBefore_asymm (hg y (by simp)) hx hyx
      · exact h.1 z hz
    · next hyx =>
      have hyx' : lexBefore (obj y) (obj x) = false := by simpa using hyx
      rw [List.pairwise_cons]
      refine ⟨fun z hz => ?_, List.pairwise_cons.mpr h⟩
      rcases List.mem_cons.mp hz with rfl | hz
      · exact hyx'
      · exact lexBefore_negTrans (hg z (by simp [hz])) (hg y (by simp)) hx (h.1 z hz) hyx'

/-- the iterations one after the other -/
def serialOut {σ : Type} (body : Nat → List (σ → σ)) : Nat → List (Nat × (σ → σ))
  | 0 => []
  | n + 1 => serialOut body n ++ (body n).map fun a => (n, a)

theorem serialOut_tags {σ : Type} (body : Nat → List (σ → σ)) : ∀ (n : Nat), ∀ p ∈ serialOut body n, p.1 < n
  | 0, p, h => by simp [serialOut] at h
  | n + 1, p, h => by
    rcases List.mem_append.mp h with h | h
    · exact Nat.lt_succ_of_lt (serialOut_tags body n p h)
    · obtain ⟨a, -, rfl⟩ := List.mem_map.mp h
      exact Nat.lt_succ_self n

theorem serialOut_ok {σ : Type} (body : Nat → List (σ → σ)) (n : Nat) : IsInterleaving body 0 n (serialOut body n) := by
  refine ⟨?_, fun p hp => ⟨Nat.zero_le _, by simpa using serialOut_tags body n p hp⟩⟩
  induction n with
  | zero => intro i _ h; omega
  | succ n ih =>
    intro i h0 h
    simp only [serialOut, List.filter_append, List.map_append]
    by_cases hi : i = n
    · subst hi
      have e1 : (serialOut body i).filter (fun p => p.1 == i) = [] := by
        rw [List.filter_eq_nil_iff]
        intro p hp
        have := serialOut_tags body i p hp
        simp
        omega
      have e2 : ((body i).map fun a => (i, a)).filter (fun p => p.1 == i) = (body i).map fun a => (i, a) := by
        rw [List.filter_eq_self]
        intro p hp
        obtain ⟨a, -, rfl⟩ := List.mem_map.mp hp
        simp
      rw [e1, e2, List.map_map]
      simp [Function.comp_def]
    · have e2 : ((body n).map fun a => (n, a)).filter (fun p => p.1 == i) = [] := by
        rw [List.filter_eq_nil_iff]
        intro p hp
        obtain ⟨a, -, rfl⟩ := List.mem_map.mp hp
        simp
        omega
      rw [e2, ih i h0 (by omega)]
      simp

theorem psetOf_ok {T : Type} [LawfulCmp α] (d : Nat) (obj : T → List α) (v : List T) (hd : 1 < d) (hne : v ≠ []) (hg : ∀ x ∈ v, GoodObjs d (obj x)) :
    ParetoSet obj v (psetOf obj v) := by
  refine ⟨?_, serialOut (paretoBody obj v) v.length, serialOut_ok _ _, ?_, ?_⟩
  · obtain ⟨x, xs, rfl⟩ := List.exists_cons_of_ne_nil hne
    exact ⟨x, rfl, by rw [(hg x (by simp)).1]; exact hd⟩
  · have hout := serialOut_ok (paretoBody obj v) v.length
    rw [paretoBody_eq] at hout
    have := C25_loop_mutex_append _ 0 v.length _ hout []
    rw [← paretoBody_eq, serial_pareto obj v v.length 0 [] (by omega)] at this
    have h2 : (runTagged (serialOut (paretoBody obj v) v.length) []).Perm (v.filter fun x => nonDominated obj (obj x) v) := by simpa using this
    refine List.Perm.trans ?_ h2.symm
    unfold psetOf
    generalize v.filter (fun x => nonDominated obj (obj x) v) = w
    induction w with
    | nil => exact .refl _
    | cons x xs ih => exact (insLex_perm obj x _).trans (ih.cons x)
  · unfold psetOf
    have hw : ∀ x ∈ v.filter (fun x => nonDominated obj (obj x) v), GoodObjs d (obj x) := fun x hx => hg x (List.mem_of_mem_filter hx)
    generalize v.filter (fun x => nonDominated obj (obj x) v) = w at hw
    have : (∀ x ∈ w.foldr (insLex obj) [], GoodObjs d (obj x)) ∧ SortedFor (fun x y => lexBefore (obj x) (obj y)) (w.foldr (insLex obj) []) := by
      induction w with
      | nil => exact ⟨by simp, by simp [SortedFor]⟩
      | cons x xs ih =>
        obtain ⟨i1, i2⟩ := ih fun y hy => hw y (by simp [hy])
        refine ⟨fun y hy => ?_, insLex_sorted obj x (hw x (by simp)) _ i1 i2⟩
        rcases List.mem_cons.mp ((insLex_perm obj x _).mem_iff.mp hy) with rfl | hy
        · exact hw _ (by simp)
        · exact i1 y hy
    exact this.2

/-! ## more about the loops -/

theorem boInit_currentIteration {N : Type} {Q : BoParams α N} {f : StateFun α N} {reset : Bool} {st st' : BoState α N}
    (h : boInit Q f reset (st.push (.start reset)) = .ok st') : st'.currentIteration = 0 := by
  have h0 : (initState reset st).currentIteration = 0 := by cases reset <;> rfl
  rw [boInit_eq] at h
  split at h
  · split at h
    · obtain ⟨vs, -, -, rfl⟩ := evalAll_ok h
      exact h0
    · simp at h
  · simp only [Res.ok.injEq] at h
    rw [← h]
    exact h0

theorem pushRows_len : ∀ (obs : List (List α)) (cols cols' : List (List (List α))), pushRows obs cols = some cols' → cols'.length = cols.length
  | [], cols, cols', h => by simp only [pushRows, Option.some.injEq] at h; rw [h]
  | v :: obs, cols, cols', h => by
    simp only [pushRows] at h
    cases hp : pushRow cols v with
    | none => rw [hp] at h; simp at h
    | some c1 =>
      rw [hp, Option.bind_some] at h
      rw [pushRows_len obs c1 cols' h, pushRow_length cols v c1 hp]

/-- what an iteration of NSBO evaluates -/
theorem nsboPick_of [LawfulCmp α] {P : MuParams α M} {data : M → List (List α × List α)} (hL : LearnsFresh P.ops data) (hp : PsetOk P)
    {ea : BoState α (MM α M) → Nat → List (List α × List α)} (hea : P.sferes = some ea) {d dim : Nat} {st s1 : BoState α (MM α M)}
    (hsig : ∀ s : BoState α (MM α M), s.samples ≠ [] → s.samples = st.samples → s.observations = st.observations → FittedTo data d s.samples s.observations s.model.models →
      ∀ m ∈ s.model.models, ∀ p ∈ ea s dim, isNaN (P.sigma m p.1) = false) (hl : st.samples.length = st.observations.length) (hO : ∀ v ∈ st.observations, v.length = d)
    {pv : List (PPoint α)} {best : PPoint α} (h1 : updateParetoModel P dim st = .ok s1)
    (h2 : callPset P 2 (fun p => p.2.2) s1 s1.model.paretoModel = some pv) (h3 : best ∈ pv) :
    ∃ s : BoState α (MM α M), s.samples = st.samples ∧ s.observations = st.observations ∧
      FittedTo data d s.samples s.observations s.model.models ∧ (∃ y, (best.1, y) ∈ ea s dim) ∧
      ∀ p ∈ ea s dim, ¬ Dominates (s.model.models.map fun m => P.sigma m p.1) (s.model.models.map fun m => P.sigma m best.1) := by
  classical
  obtain ⟨t, g1, g2, g3, -, g5⟩ := updateParetoModel_ok h1
  have hfit := updateModels_fitted hL g1 hl hO
  obtain ⟨s0, -, -, ms, hs0, -, -, -, et⟩ := updateModels_ok g1
  rw [hea] at g5
  simp only at g5
  obtain ⟨rfl, x, hx, hlx⟩ := callPset_some h2
  have hgood : ∀ p ∈ s1.model.paretoModel, GoodObjs t.model.models.length p.2.2 := by
    intro p hp'
    rw [g5, List.mem_map] at hp'
    obtain ⟨q, hq, rfl⟩ := hp'
    refine ⟨by simp, fun y hy => ?_⟩
    obtain ⟨m, hm, rfl⟩ := List.mem_map.mp hy
    exact hsig t (by rw [et]; rintro h0; rw [h0] at hs0; cases hs0) (by rw [et]) (by rw [et]) (by rw [et] at hfit ⊢; exact hfit) m hm q hq
  have hxm := List.mem_of_head? hx
  have hd1 : 1 < t.model.models.length := by rw [← (hgood x hxm).1]; exact hlx
  obtain ⟨hperm, -⟩ := C57_pareto_set _ (fun p : PPoint α => p.2.2) s1.model.paretoModel hgood _
    (hp 2 _ (Or.inr ⟨rfl, rfl⟩) s1 _ _ hd1 (List.ne_nil_of_mem hxm) hgood)
  rw [hperm.mem_iff, List.mem_filter, decide_eq_true_eq] at h3
  obtain ⟨hb, hnd⟩ := h3
  have hb' := hb
  rw [g5, List.mem_map] at hb'
  obtain ⟨q, hq, rfl⟩ := hb'
  refine ⟨t, by rw [et], by rw [et], ?_, ⟨q.2, hq⟩, fun p hp' => ?_⟩
  · rw [et] at hfit ⊢
    exact hfit
  · refine hnd (p.1, p.2, t.model.models.map fun m => P.sigma m p.1) ?_
    rw [g5, List.mem_map]
    exact ⟨p, hp', rfl⟩

theorem MuLoops.nsbo_choice [LawfulCmp α] {P : MuParams α M} {data : M → List (List α × List α)} (hL : LearnsFresh P.ops data) (hp : PsetOk P)
    {ea : BoState α (MM α M) → Nat → List (List α × List α)} (hea : P.sferes = some ea) {d : Nat}
    {f : StateFun α (MM α M)} {afun : List α → α} {n : Nat} {st st' : BoState α (MM α M)}
    (hsig : ∀ s : BoState α (MM α M), s.samples ≠ [] → s.samples <+: st'.samples → s.observations <+: st'.observations →
      s.samples.length = s.observations.length → FittedTo data d s.samples s.observations s.model.models → ∀ m ∈ s.model.models, ∀ p ∈ ea s f.dimIn, isNaN (P.sigma m p.1) = false)
    (h : MuLoops P (Limbo.muBody .nsbo P f afun) afun n st st') (hl : st.samples.length = st.observations.length)
    (hd : ∀ v ∈ st'.observations, v.length = d) : ∀ j x, st.samples.length ≤ j → st'.samples[j]? = some x →
      ∃ s : BoState α (MM α M), s.samples = st'.samples.take j ∧ s.observations = st'.observations.take j ∧
        FittedTo data d s.samples s.observations s.model.models ∧ (∃ y, (x, y) ∈ ea s f.dimIn) ∧
        ∀ p ∈ ea s f.dimIn, ¬ Dominates (s.model.models.map fun m => P.sigma m p.1) (s.model.models.map fun m => P.sigma m x) := by
  induction h with
  | done hb =>
    obtain ⟨as, rfl, -⟩ := boStop_spec hb
    intro j x hj hx
    simp only at hx
    have := (List.getElem?_eq_some_iff.mp hx).1
    omega
  | @step n st s1 s2 st' hb h1 h2 ih =>
    obtain ⟨as, rfl, -⟩ := boStop_spec hb
    obtain ⟨t1, pv, best, v, b1, b2, b3, hf, -, e1, e2, e3, -, -⟩ := nsboIteration_ok h1
    simp only at e1 e2
    obtain ⟨xs, vs, l1, l2, -, a1, a2, -, -⟩ := h2.sum
    have hO1 : ∀ w ∈ st.observations, w.length = d := fun w hw => hd w (by rw [a2, e2]; simp [hw])
    intro j y hj hy
    rcases Nat.lt_or_ge st.samples.length j with hj' | hj'
    · exact ih hsig (by rw [e1, e2]; simp [hl]) hd j y (by rw [e1, List.length_append, List.length_singleton]; omega) hy
    · have : j = st.samples.length := by omega
      subst this
      rw [a1, e1, List.append_assoc, List.getElem?_append_right (Nat.le_refl _), Nat.sub_self] at hy
      simp only [List.cons_append, List.nil_append, List.getElem?_cons_zero, Option.some.injEq] at hy
      subst hy
      rw [a1, e1, a2, e2, List.append_assoc, List.append_assoc, List.take_left, hl, List.take_left]
      refine nsboPick_of hL hp hea (st := { st with trace := st.trace ++ as }) (fun s hs0 hs1 hs2 => hsig s hs0 ?_ ?_ (by rw [hs1, hs2]; exact hl)) hl hO1 b1 b2 b3
      · rw [hs1, a1, e1, List.append_assoc]; exact List.prefix_append _ _
      · rw [hs2, a2, e2, List.append_assoc]; exact List.prefix_append _ _

end Limbo
