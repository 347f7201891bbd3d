import Verif.Lemmas.BoRel
import Verif.Lemmas.BoHonest
import Verif.Spec.BoShift

/-! Two runs of the optimizer side by side. -/

namespace Limbo

variable {M : Type} {t : Nat → ℝ} {afun : List XR → XR} {P : BoParams XR M} {R : M → List (List XR × List XR) → Prop}

/-- results of the two runs, when neither is undefined or endless -/
def TwinRes (A B : BoState XR M → BoState XR M → Prop) : Res (BoState XR M) → Res (BoState XR M) → Prop
  | .ok s, .ok s' => A s s'
  | .throw e s, .throw e' s' => e' = e ∧ B s s'
  | .ub, _ => True
  | .diverge, _ => True
  | _, .ub => True
  | _, .diverge => True
  | _, _ => False

theorem TwinRes.andThen {A A' B : BoState XR M → BoState XR M → Prop} {r r' : Res (BoState XR M)} {k k' : BoState XR M → Res (BoState XR M)}
    (h : TwinRes A B r r') (hk : ∀ s s', A s s' → TwinRes A' B (k s) (k' s')) : TwinRes A' B (r.andThen k) (r'.andThen k') := by
  cases r <;> cases r' <;> simp only [TwinRes, Res.andThen, Res.bind] at h ⊢
  case ok.ok s s' => exact hk s s' h
  case ok.ub s => cases k s <;> trivial
  case ok.diverge s => cases k s <;> trivial
  all_goals first | exact h | trivial

theorem TwinRes.mono {A A' B B' : BoState XR M → BoState XR M → Prop} {r r' : Res (BoState XR M)} (h : TwinRes A B r r') (hA : ∀ s s', A s s' → A' s s')
    (hB : ∀ s s', B s s' → B' s s') : TwinRes A' B' r r' := by
  cases r <;> cases r' <;> simp only [TwinRes] at h ⊢
  · exact hA _ _ h
  · exact ⟨h.1, hB _ _ h.2⟩

/-- between calls -/
structure TwinAny (t : Nat → ℝ) (R : M → List (List XR × List XR) → Prop) (q q' : BoState XR M) : Prop where
  same : SameSearch t q q'
  len : q.samples.length = q.observations.length
  wf : ∃ d, R q.model d
  wf' : ∃ d, R q'.model d

/-- at the head of the loop -/
structure TwinHead (t : Nat → ℝ) (R : M → List (List XR × List XR) → Prop) (q q' : BoState XR M) : Prop where
  same : SameSearch t q q'
  len : q.samples.length = q.observations.length
  model : R q.model (q.samples.zip q.observations)
  model' : R q'.model (q'.samples.zip q'.observations)
  empty : q.samples = [] → q'.model = q.model

theorem TwinHead.any {q q' : BoState XR M} (h : TwinHead t R q q') : TwinAny t R q q' := ⟨h.same, h.len, ⟨_, h.model⟩, ⟨_, h.model'⟩⟩

/-- between evaluation and model update -/
structure TwinLag (t : Nat → ℝ) (R : M → List (List XR × List XR) → Prop) (q q' : BoState XR M) : Prop where
  same : SameSearch t q q'
  len : q.samples.length = q.observations.length
  lag : ∃ xs ys x y, q.samples = xs ++ [x] ∧ q.observations = ys ++ [y] ∧ xs.length = ys.length ∧ R q.model (xs.zip ys) ∧ R q'.model (xs.zip (ys.map (shiftX t)))

theorem TwinLag.any {q q' : BoState XR M} (h : TwinLag t R q q') : TwinAny t R q q' := by
  obtain ⟨xs, ys, x, y, -, -, -, h1, h2⟩ := h.lag
  exact ⟨h.same, h.len, ⟨_, h1⟩, ⟨_, h2⟩⟩

theorem callPts_snoc_neutral {e : Event XR M} (he : ∀ x r, e ≠ .call x r) (tr : List (Event XR M)) : callPts (tr ++ [e]) = callPts tr := by
  rw [callPts_append]
  cases e <;> simp [callPts] 
  exact absurd rfl (he _ _)

theorem SameSearch.push {q q' : BoState XR M} (h : SameSearch t q q') {e e' : Event XR M} (he : ∀ x r, e ≠ .call x r) (he' : ∀ x r, e' ≠ .call x r) :
    SameSearch t (q.push e) (q'.push e') :=
  ⟨h.samples, h.observations, h.cur, h.tot, by simp only [BoState.push, callPts_snoc_neutral he, callPts_snoc_neutral he', h.pts]⟩

theorem isNanOrInf_shift (t : Nat → ℝ) (v : List XR) : isNanOrInf (shiftX t v) = isNanOrInf v := by
  have key : ∀ (v : List XR) (t : Nat → ℝ), isNanOrInf (v.mapIdx fun i y => y + XR.fin (t i)) = isNanOrInf v := by
    intro v
    induction v with
    | nil => intro t; rfl
    | cons y v ih =>
      intro t
      rw [List.mapIdx_cons]
      simp only [isNanOrInf]
      have hi : isInf (y + XR.fin (t 0)) = isInf y ∧ isNaN (y + XR.fin (t 0)) = isNaN y := by
        cases y <;> exact ⟨rfl, rfl⟩
      rw [hi.1, hi.2, ih fun i => t (i + 1)]
  exact key v t

theorem twin_add {q q' : BoState XR M} (h : SameSearch t q q') (s v : List XR) {A B : BoState XR M → BoState XR M → Prop} (hB : B q q')
    (hA : SameSearch t { q with samples := q.samples ++ [s], observations := q.observations ++ [v] }
        { q' with samples := q'.samples ++ [s], observations := q'.observations ++ [shiftX t v] } →
      A { q with samples := q.samples ++ [s], observations := q.observations ++ [v] } { q' with samples := q'.samples ++ [s], observations := q'.observations ++ [shiftX t v] }) :
    TwinRes A B (addNewSample s v q) (addNewSample s (shiftX t v) q') := by
  unfold addNewSample
  rw [isNanOrInf_shift]
  by_cases hv : isNanOrInf v
  · rw [if_pos hv, if_pos hv]; exact ⟨rfl, hB⟩
  · rw [if_neg hv, if_neg hv]
    exact hA ⟨by simp only [h.samples], by simp only [h.observations, List.map_append, List.map_cons, List.map_nil], h.cur, h.tot, h.pts⟩

/-- what the two runs need of the model -/
structure TwinModel (ops : ModelOps XR M) (R : M → List (List XR × List XR) → Prop) : Prop where
  fresh : ∀ i o, R (ops.fresh i o) []
  compute : ∀ s v m d m', R m d → s.length = v.length → ops.compute s v m = .ok m' → R m' (s.zip v)
  addSample : ∀ s v m d m', R m d → ops.addSample s v m = .ok m' → R m' (d ++ [(s, v)])
  computeThrow : ∀ s v m e m', ops.compute s v m ≠ .throw e m'
  addThrow : ∀ s v m e m', ops.addSample s v m ≠ .throw e m'

theorem SameSearch.call {q q' : BoState XR M} (h : SameSearch t q q') (x : List XR) (r r' : CallRes XR) :
    SameSearch t (q.push (.call x r)) (q'.push (.call x r')) :=
  ⟨h.samples, h.observations, h.cur, h.tot, by simp only [BoState.push, callPts_append, h.pts]; rfl⟩

theorem twin_eval {sf sf' : StateFun XR M} (hsf : ShiftedFun t sf sf') {q q' : BoState XR M} (h : SameSearch t q q') (x : List XR)
    {A B : BoState XR M → BoState XR M → Prop}
    (hB : ∀ s s', SameSearch t s s' → s.samples = q.samples → s.observations = q.observations → s.model = q.model → s'.model = q'.model → B s s')
    (hA : ∀ s s' y, SameSearch t s s' → s.samples = q.samples ++ [x] → s.observations = q.observations ++ [y] → s.model = q.model → s'.model = q'.model → A s s') :
    TwinRes A B (evalAndAdd sf x q) (evalAndAdd sf' x q') := by
  unfold evalAndAdd
  simp only [hsf.call q.trace q'.trace x h.pts]
  cases hr : sf.call q.trace x with
  | threw => exact ⟨rfl, hB _ _ (h.call x _ _) rfl rfl rfl rfl⟩
  | ret v =>
    exact twin_add (h.call x _ _) x v (hB _ _ (h.call x _ _) rfl rfl rfl rfl) fun hs => hA _ _ v hs rfl rfl rfl rfl

theorem twin_evalAll {sf sf' : StateFun XR M} (hsf : ShiftedFun t sf sf') : ∀ (pts : List (List XR)) {q q' : BoState XR M}, TwinAny t R q q' →
    TwinRes (TwinAny t R) (TwinAny t R) (evalAll sf pts q) (evalAll sf' pts q')
  | [], _, _, h => h
  | x :: xs, q, q', h => by
    refine TwinRes.andThen (A := TwinAny t R) ?_ fun s s' hs => twin_evalAll hsf xs hs
    refine twin_eval hsf h.same x (fun s s' hs h1 h2 h3 h4 => ⟨hs, by rw [h1, h2, h.len], by rw [h3]; exact h.wf, by rw [h4]; exact h.wf'⟩)
      (fun s s' y hs h1 h2 h3 h4 => ⟨hs, by simp [h1, h2, h.len], by rw [h3]; exact h.wf, by rw [h4]; exact h.wf'⟩)

theorem twin_init (hb : BlindParts t afun P) {sf sf' : StateFun XR M} (hsf : ShiftedFun t sf sf') (reset : Bool) {q q' : BoState XR M} (h : TwinAny t R q q') :
    TwinRes (TwinAny t R) (TwinAny t R) (boInit P sf reset q) (boInit P sf' reset q') := by
  unfold boInit
  simp only
  have hs : TwinAny t R (if reset then { q with currentIteration := 0, totalIterations := 0, samples := [], observations := [] } else { q with currentIteration := 0 })
      (if reset then { q' with currentIteration := 0, totalIterations := 0, samples := [], observations := [] } else { q' with currentIteration := 0 }) := by
    cases reset
    · exact ⟨⟨h.same.samples, h.same.observations, rfl, h.same.tot, h.same.pts⟩, h.len, h.wf, h.wf'⟩
    · exact ⟨⟨rfl, rfl, rfl, rfl, h.same.pts⟩, rfl, h.wf, h.wf'⟩
  generalize (if reset then { q with currentIteration := 0, totalIterations := 0, samples := [], observations := [] } else { q with currentIteration := 0 } : BoState XR M) = s at *
  generalize (if reset then { q' with currentIteration := 0, totalIterations := 0, samples := [], observations := [] } else { q' with currentIteration := 0 } : BoState XR M) = s' at *
  rw [hs.same.tot, hsf.dimIn, hb.init s s' _ hs.same]
  by_cases h0 : s.totalIterations = 0
  · rw [if_pos h0, if_pos h0]
    cases P.initPts s sf.dimIn with
    | none => trivial
    | some pts => exact twin_evalAll hsf pts hs
  · rw [if_neg h0, if_neg h0]; exact hs

theorem twin_model_init (hT : TwinModel P.ops R) {sf sf' : StateFun XR M} (hsf : ShiftedFun t sf sf') {q q' : BoState XR M} (h : TwinAny t R q q') :
    TwinRes (TwinHead t R) (TwinAny t R) (boModelInit P sf q) (boModelInit P sf' q') := by
  have he : q'.observations.isEmpty = q.observations.isEmpty := by rw [h.same.observations]; simp
  unfold boModelInit
  rw [he, hsf.dimIn, hsf.dimOut]
  have hlen' : q'.samples.length = q'.observations.length := by rw [h.same.samples, h.same.observations, List.length_map]; exact h.len
  by_cases h0 : q.observations.isEmpty
  · rw [if_pos h0, if_pos h0]
    have ho : q.observations = [] := List.isEmpty_iff.1 h0
    have hs : q.samples = [] := List.length_eq_zero_iff.1 (by rw [h.len, ho]; rfl)
    have hs' : q'.samples = [] := by rw [h.same.samples, hs]
    exact ⟨⟨h.same.samples, h.same.observations, h.same.cur, h.same.tot, h.same.pts⟩, h.len, by simp only [hs, List.zip_nil_left]; exact hT.fresh _ _,
      by simp only [hs', List.zip_nil_left]; exact hT.fresh _ _, fun _ => rfl⟩
  · rw [if_neg h0, if_neg h0]
    obtain ⟨d, hd⟩ := h.wf
    obtain ⟨d', hd'⟩ := h.wf'
    cases hc : P.ops.compute q.samples q.observations q.model with
    | ub => trivial
    | diverge => trivial
    | throw e m => exact absurd hc (hT.computeThrow _ _ _ _ _)
    | ok m =>
      cases hc' : P.ops.compute q'.samples q'.observations q'.model with
      | ub => trivial
      | diverge => trivial
      | throw e m => exact absurd hc' (hT.computeThrow _ _ _ _ _)
      | ok m' =>
        refine ⟨⟨h.same.samples, h.same.observations, h.same.cur, h.same.tot, h.same.pts⟩, h.len, hT.compute _ _ _ _ _ hd h.len hc,
          hT.compute _ _ _ _ _ hd' hlen' hc', fun hnil => ?_⟩
        have : q.observations = [] := List.length_eq_zero_iff.1 (by rw [← h.len, show q.samples = [] from hnil]; rfl)
        rw [this] at h0; simp at h0

theorem twin_chain {q q' : BoState XR M} : ∀ (cs : List (Criterion XR M)), (∀ c ∈ cs, c q' afun = c q afun) → ∀ (k : Nat) (state : Bool) (tr tr' : List (Event XR M)),
    callPts tr' = callPts tr →
    (chainCriteria q afun cs k state tr = none ∧ chainCriteria q' afun cs k state tr' = none) ∨
    ∃ b r r', chainCriteria q afun cs k state tr = some (b, r) ∧ chainCriteria q' afun cs k state tr' = some (b, r') ∧ callPts r' = callPts r
  | [], _, _, _, tr, tr', h => Or.inr ⟨_, tr, tr', rfl, rfl, h⟩
  | c :: cs, hc, k, state, tr, tr', h => by
    simp only [chainCriteria]
    cases state with
    | true => exact twin_chain cs (fun c hm => hc c (List.mem_cons_of_mem _ hm)) _ _ tr tr' h
    | false =>
      simp only [Bool.false_eq_true, if_false, hc c (by simp)]
      cases c q afun with
      | none => exact Or.inl ⟨rfl, rfl⟩
      | some b =>
        exact twin_chain cs (fun c hm => hc c (List.mem_cons_of_mem _ hm)) _ _ _ _
          (by rw [callPts_snoc_neutral (by simp), callPts_snoc_neutral (by simp), h])

theorem twin_stats {q q' : BoState XR M} (h : TwinLag t R q q') : TwinRes (TwinLag t R) (TwinAny t R) (updateStats P afun q) (updateStats P afun q') := by
  have hp : TwinLag t R (q.push (.stat q.model)) (q'.push (.stat q'.model)) := ⟨h.same.push (by simp) (by simp), h.len, h.lag⟩
  unfold updateStats
  simp only
  generalize q.push (.stat q.model) = s at *
  generalize q'.push (.stat q'.model) = s' at *
  cases P.statsEnabled with
  | false => exact hp
  | true =>
    simp only [if_true]
    cases refreshStats s afun P.stats s.logs with
    | none => trivial
    | some l =>
      cases refreshStats s' afun P.stats s'.logs with
      | none => trivial
      | some l' => exact ⟨⟨hp.same.samples, hp.same.observations, hp.same.cur, hp.same.tot, hp.same.pts⟩, hp.len, hp.lag⟩

theorem twin_model_add (hT : TwinModel P.ops R) {q q' : BoState XR M} (h : TwinLag t R q q') :
    TwinRes (TwinHead t R) (TwinAny t R) (boModelAdd P q) (boModelAdd P q') := by
  obtain ⟨xs, ys, x, y, h1, h2, h3, h4, h5⟩ := h.lag
  have h1' : q'.samples = xs ++ [x] := by rw [h.same.samples, h1]
  have h2' : q'.observations = ys.map (shiftX t) ++ [shiftX t y] := by rw [h.same.observations, h2]; simp
  unfold boModelAdd
  rw [h1, h2, h1', h2']
  simp only [List.getLast?_append, List.getLast?_singleton, Option.some_or]
  cases hc : P.ops.addSample x y q.model with
  | ub => trivial
  | diverge => trivial
  | throw e m => exact absurd hc (hT.addThrow _ _ _ _ _)
  | ok m =>
    cases hc' : P.ops.addSample x (shiftX t y) q'.model with
    | ub => trivial
    | diverge => trivial
    | throw e m => exact absurd hc' (hT.addThrow _ _ _ _ _)
    | ok m' =>
      refine ⟨⟨h.same.samples, h.same.observations, h.same.cur, h.same.tot, h.same.pts⟩, h.len, ?_, ?_, fun hn => ?_⟩
      · show R m (q.samples.zip q.observations)
        rw [h1, h2, List.zip_append h3]
        exact hT.addSample _ _ _ _ _ h4 hc
      · show R m' (q'.samples.zip q'.observations)
        rw [h1', h2', List.zip_append (by simpa using h3)]
        exact hT.addSample _ _ _ _ _ h5 hc'
      · have : q.samples = [] := hn
        rw [h1] at this; simp at this

/-- the optimizer of the acquisition function does the same in both runs -/
def TwinInner (t : Nat → ℝ) (afun : List XR → XR) (P : BoParams XR M) (R : M → List (List XR × List XR) → Prop) : Prop :=
  ∀ q q' : BoState XR M, TwinHead t R q q' → ∀ d, SameOpt
    (P.acquiOpt (q.push (.acqui q.model q.currentIteration)) (fun x g => P.acqui q.model q.currentIteration afun x g)
      (P.startPt (q.push (.acqui q.model q.currentIteration)) d) P.bounded)
    (P.acquiOpt (q'.push (.acqui q'.model q'.currentIteration)) (fun x g => P.acqui q'.model q'.currentIteration afun x g)
      (P.startPt (q'.push (.acqui q'.model q'.currentIteration)) d) P.bounded)

theorem twin_iteration (hT : TwinModel P.ops R) (hh : P.hpPeriod ≤ 0) (hi : TwinInner t afun P R) {sf sf' : StateFun XR M} (hsf : ShiftedFun t sf sf')
    {q q' : BoState XR M} (h : TwinHead t R q q') : TwinRes (TwinHead t R) (TwinAny t R) (boIteration P sf afun q) (boIteration P sf' afun q') := by
  unfold boIteration
  simp only
  have hs0 := h.same.push (e := .acqui q.model q.currentIteration) (e' := .acqui q'.model q'.currentIteration) (by simp) (by simp)
  have ho := hi q q' h sf.dimIn
  rw [← hsf.dimIn] at ho
  nth_rewrite 1 [hsf.dimIn] at ho
  change SameOpt (P.acquiOpt (q.push (.acqui q.model q.currentIteration)) (fun x g => P.acqui (q.push (.acqui q.model q.currentIteration)).model
      (q.push (.acqui q.model q.currentIteration)).currentIteration afun x g) _ P.bounded)
    (P.acquiOpt (q'.push (.acqui q'.model q'.currentIteration)) (fun x g => P.acqui (q'.push (.acqui q'.model q'.currentIteration)).model
      (q'.push (.acqui q'.model q'.currentIteration)).currentIteration afun x g) _ P.bounded) at ho
  have hm : (q.push (.acqui q.model q.currentIteration)).model = q.model := rfl
  have hm' : (q'.push (.acqui q'.model q'.currentIteration)).model = q'.model := rfl
  have hsm : (q.push (.acqui q.model q.currentIteration)).samples = q.samples := rfl
  have hob : (q.push (.acqui q.model q.currentIteration)).observations = q.observations := rfl
  generalize q.push (.acqui q.model q.currentIteration) = s at *
  generalize q'.push (.acqui q'.model q'.currentIteration) = s' at *
  cases hr : P.acquiOpt s (fun x g => P.acqui s.model s.currentIteration afun x g) (P.startPt s sf.dimIn) P.bounded with
  | ub => trivial
  | threw =>
    rw [hr] at ho
    cases hr' : P.acquiOpt s' (fun x g => P.acqui s'.model s'.currentIteration afun x g) (P.startPt s' sf'.dimIn) P.bounded with
    | ub => trivial
    | threw => exact ⟨rfl, hs0, by rw [hsm, hob]; exact h.len, ⟨_, by rw [hm]; exact h.model⟩, ⟨_, by rw [hm']; exact h.model'⟩⟩
    | point x => rw [hr'] at ho; exact ho.elim
  | point x =>
    rw [hr] at ho
    cases hr' : P.acquiOpt s' (fun x g => P.acqui s'.model s'.currentIteration afun x g) (P.startPt s' sf'.dimIn) P.bounded with
    | ub => simp only; cases (evalAndAdd sf x s).andThen _ <;> trivial
    | threw => rw [hr'] at ho; exact ho.elim
    | point x' =>
      rw [hr'] at ho
      cases (show x' = x from ho)
      simp only
      refine TwinRes.andThen (A := TwinLag t R) ?_ fun s1 s1' h1 => TwinRes.andThen (A := TwinLag t R) (twin_stats h1) fun s2 s2' h2 =>
        TwinRes.andThen (A := TwinHead t R) (twin_model_add hT h2) fun s3 s3' h3 => ?_
      · refine twin_eval hsf hs0 x (fun a a' hs h1 h2 h3 h4 => ⟨hs, by rw [h1, h2, hsm, hob, h.len], ⟨_, by rw [h3, hm]; exact h.model⟩, ⟨_, by rw [h4, hm']; exact h.model'⟩⟩)
          (fun a a' y hs h1 h2 h3 h4 => ⟨hs, by simp [h1, h2, hsm, hob, h.len], q.samples, q.observations, x, y, by rw [h1, hsm], by rw [h2, hob], h.len, by rw [h3, hm]; exact h.model, ?_⟩)
        rw [h4, hm', ← h.same.samples, ← h.same.observations]; exact h.model'
      · have e : ∀ z : BoState XR M, boHp P z = .ok z := fun z => if_neg (fun hc => absurd hc.1 (not_lt.2 hh))
        rw [e, e]
        exact ⟨⟨h3.same.samples, h3.same.observations, congrArg (· + 1) h3.same.cur, congrArg (· + 1) h3.same.tot, h3.same.pts⟩, h3.len, h3.model, h3.model', h3.empty⟩

theorem twin_loop (hT : TwinModel P.ops R) (hh : P.hpPeriod ≤ 0) (hb : BlindParts t afun P) (hi : TwinInner t afun P R) {sf sf' : StateFun XR M}
    (hsf : ShiftedFun t sf sf') : ∀ (fuel : Nat) {q q' : BoState XR M}, TwinHead t R q q' →
    TwinRes (TwinAny t R) (TwinAny t R) (boLoop P sf afun fuel q) (boLoop P sf' afun fuel q')
  | 0, _, _, _ => trivial
  | fuel + 1, q, q', h => by
    simp only [boLoop, boStop]
    rcases twin_chain (q := q) (q' := q') P.stop (fun c hc => hb.stop c hc q q' h.same) 0 false q.trace q'.trace h.same.pts with ⟨e1, e2⟩ | ⟨b, r, r', e1, e2, e3⟩
    · rw [e1]; trivial
    · rw [e1, e2]
      have hq : TwinHead t R { q with trace := r } { q' with trace := r' } :=
        ⟨⟨h.same.samples, h.same.observations, h.same.cur, h.same.tot, e3⟩, h.len, h.model, h.model', h.empty⟩
      cases b with
      | true => exact hq.any
      | false => exact TwinRes.andThen (twin_iteration hT hh hi hsf hq) fun s s' hs => twin_loop hT hh hb hi hsf fuel hs

theorem twin_optimize (hT : TwinModel P.ops R) (hh : P.hpPeriod ≤ 0) (hb : BlindParts t afun P) (hi : TwinInner t afun P R) {sf sf' : StateFun XR M}
    (hsf : ShiftedFun t sf sf') (reset : Bool) (fuel : Nat) {q q' : BoState XR M} (h : TwinAny t R q q') :
    TwinRes (TwinAny t R) (TwinAny t R) (optimize P sf afun reset fuel q) (optimize P sf' afun reset fuel q') := by
  unfold optimize
  have h0 : TwinAny t R (q.push (.start reset)) (q'.push (.start reset)) := ⟨h.same.push (by simp) (by simp), h.len, h.wf, h.wf'⟩
  exact TwinRes.andThen (twin_init hb hsf reset h0) fun s s' hs => TwinRes.andThen (twin_model_init hT hsf hs) fun a a' ha => twin_loop hT hh hb hi hsf fuel ha

theorem twin_runOps (hT : TwinModel P.ops R) (hh : P.hpPeriod ≤ 0) (hb : BlindParts t afun P) (hi : TwinInner t afun P R) {ops ops' : List (BoOp XR M)}
    (hops : List.Forall₂ (ShiftedOp t afun) ops ops') : ∀ {q q' st st' : BoState XR M}, TwinAny t R q q' → runOps P ops q = some st → runOps P ops' q' = some st' →
    TwinAny t R st st' := by
  induction hops with
  | nil =>
    intro q q' st st' h h1 h2
    simp only [runOps, Option.some.injEq] at h1 h2
    rw [← h1, ← h2]; exact h
  | @cons o o' os os' ho _ ih =>
    intro q q' st st' h h1 h2
    have key : TwinRes (TwinAny t R) (TwinAny t R) (runOp P o q) (runOp P o' q') := by
      cases o <;> cases o' <;> simp only [ShiftedOp] at ho
      · obtain ⟨hsf, rfl, rfl, rfl, rfl⟩ := ho
        exact twin_optimize hT hh hb hi hsf _ _ h
      · rename_i s v s' v'
        obtain ⟨rfl, rfl⟩ := ho
        have hp := h.same.push (e := .given s' v) (e' := .given s' (shiftX t v)) (by simp) (by simp)
        exact twin_add hp _ _ ⟨hp, h.len, h.wf, h.wf'⟩ fun hs => ⟨hs, by simp [BoState.push, h.len], h.wf, h.wf'⟩
      · obtain ⟨hsf, rfl⟩ := ho
        exact twin_eval hsf h.same _ (fun s s' hs h1 h2 h3 h4 => ⟨hs, by rw [h1, h2, h.len], by rw [h3]; exact h.wf, by rw [h4]; exact h.wf'⟩)
          (fun s s' y hs h1 h2 h3 h4 => ⟨hs, by simp [h1, h2, h.len], by rw [h3]; exact h.wf, by rw [h4]; exact h.wf'⟩)
    simp only [runOps] at h1 h2
    cases hr : runOp P o q <;> rw [hr] at h1 key <;> cases hr' : runOp P o' q' <;> rw [hr'] at h2 key <;> simp only [TwinRes] at key
    case ok.ok => exact ih key h1 h2
    case throw.throw => exact ih key.2 h1 h2
    all_goals first | cases h1 | cases h2

end Limbo
