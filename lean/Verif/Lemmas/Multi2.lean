import Verif.Lemmas.Multi

/-! The loops of the multi-objective optimizers. -/

namespace Limbo

open LawfulCmp

set_option linter.unusedSectionVars false

variable {α M : Type} [Scalar α]

/-! ## the parallel maximum keeps the initial value unless something compares better -/

theorem maxChunk_start {T : Type} {f : Nat → T} {comp : T → T → Bool} (htr : ∀ a b c, comp a b = true → comp b c = true → comp a c = true)
    (init : T) : ∀ (n start : Nat) (acc : T), acc = init ∨ comp acc init = true →
      maxChunk f comp start n acc = init ∨ comp (maxChunk f comp start n acc) init = true
  | 0, _, _, h => h
  | n + 1, start, acc, h => by
    simp only [maxChunk]
    refine maxChunk_start htr init n (start + 1) _ ?_
    split
    · next hc => exact Or.inr (h.elim (fun e => e ▸ hc) (fun h => htr _ _ _ hc h))
    · exact h

theorem parMaxFrom_start {T : Type} {f : Nat → T} {comp : T → T → Bool} (htr : ∀ a b c, comp a b = true → comp b c = true → comp a c = true)
    (init : T) : ∀ (s : Sched) (start : Nat) (acc : T), acc = init ∨ comp acc init = true →
      parMaxFrom init f comp s start acc = init ∨ comp (parMaxFrom init f comp s start acc) init = true
  | .chunk n, start, acc, h => maxChunk_start htr init n start acc h
  | .seq a b, start, acc, h => parMaxFrom_start htr init b _ _ (parMaxFrom_start htr init a start acc h)
  | .fork a b, start, acc, h => by
    simp only [parMaxFrom, maxJoin]
    split
    · exact parMaxFrom_start htr init a start acc h
    · exact parMaxFrom_start htr init b _ init (Or.inl rfl)

/-! ## the choice of EHVI -/

theorem collect_point : ∀ {rs : List (OptRes α)} {ss : List (List α)}, collect rs = .point ss → rs = ss.map .point
  | [], ss, h => by
    simp only [collect, OptRes.point.injEq] at h
    simp [← h]
  | .ub :: _, ss, h => by simp [collect] at h
  | .threw :: rs, ss, h => by
    simp only [collect] at h
    split at h <;> simp at h
  | .point x :: rs, ss, h => by
    simp only [collect] at h
    cases hc : collect rs with
    | ub => rw [hc] at h; simp at h
    | threw => rw [hc] at h; simp at h
    | point xs =>
      rw [hc] at h
      simp only [OptRes.point.injEq] at h
      rw [← h, collect_point hc]
      rfl

theorem negFltMax_not_nan [LawfulArith α] : isNaN (negFltMax : α) = false := by
  have h := LawfulArith.lit_mono (α := α) (-((2 ^ 24 - 1) * 2 ^ 104)) 0 (by norm_num)
  exact (not_nan_of_le h).1

theorem forall₂_of_mapM {β γ : Type} {f : β → Option γ} : ∀ {l : List β} {l' : List γ}, l.mapM f = some l' →
    List.Forall₂ (fun a b => f a = some b) l l' := by
  intro l
  induction l with
  | nil => intro l' h; simp at h; subst h; exact .nil
  | cons a as ih =>
    intro l' h
    rw [List.mapM_cons] at h
    cases ha : f a with
    | none => simp [ha] at h
    | some b =>
      cases has : as.mapM f with
      | none => simp [ha, has] at h
      | some bs =>
        simp [ha, has] at h
        subst h
        exact .cons ha (ih has)

/-- what the parallel maximum of EHVI returns -/
theorem ehviPick_spec [LawfulArith α] {P : MuParams α M} (hs : ∀ st n, (P.sched st n).size = n) {st : BoState α (MM α M)} {x : List α}
    (h : ehviPick P st = .point x) :
    ∃ pop m0 m1 results, st.model.models = [m0, m1] ∧
      List.Forall₂ (fun (p : PPoint α) (q : α × α) => p.2.1[0]? = some q.1 ∧ p.2.1[1]? = some q.2) st.model.paretoData pop ∧
      List.Forall₂ (fun (p : PPoint α) (s : List α) => ∃ i, P.inner st i (fun z _ => (ehviAcq P pop m0 m1 z, none)) p.1 true = .point s)
        st.model.paretoData results ∧
      ((x ∈ results ∧ lt negFltMax (ehviAcq P pop m0 m1 x) = true ∧
          ∀ s ∈ results, lt (ehviAcq P pop m0 m1 x) (ehviAcq P pop m0 m1 s) = false) ∨
        (x = [lit 0] ∧ ∀ s ∈ results, lt negFltMax (ehviAcq P pop m0 m1 s) = false)) := by
  unfold ehviPick at h
  split at h
  · next pop m0 m1 hpop hm =>
    simp only at h
    split at h
    · simp at h
    · simp at h
    · next ss hc =>
      have hcol := collect_point hc
      have hlen : st.model.paretoData.length = ss.length := by
        have := congrArg List.length hcol
        simpa using this
      refine ⟨pop, m0, m1, ss, hm, ?_, ?_, ?_⟩
      · refine (forall₂_of_mapM hpop).imp fun p q hpq => ?_
        cases h0 : p.2.1[0]? with
        | none => simp [h0] at hpq
        | some a =>
          cases h1 : p.2.1[1]? with
          | none => simp [h0, h1] at hpq
          | some b =>
            simp [h0, h1] at hpq
            subst hpq
            exact ⟨rfl, rfl⟩
      · refine List.forall₂_iff_get.mpr ⟨hlen, fun i h1 h2 => ⟨i, ?_⟩⟩
        have := congrArg (fun l => l[i]?) hcol
        simp only [List.getElem?_map, List.getElem?_zipIdx, List.getElem?_eq_getElem h1, List.getElem?_eq_getElem h2, Option.map_some,
          Option.some.injEq, Nat.zero_add] at this
        exact this
      · simp only [OptRes.point.injEq] at h
        set F : Nat → List α × α := fun i => match ss[i]? with
          | some s => (s, ehviAcq P pop m0 m1 s)
          | none => ([lit 0], negFltMax) with hF
        have hFi : ∀ i (hi : i < ss.length), F i = (ss[i], ehviAcq P pop m0 m1 ss[i]) := by
          intro i hi
          simp only [hF, List.getElem?_eq_getElem hi]
        obtain ⟨m1', -, m3, m4⟩ := C24_par_max_with_nan (fun p : List α × α => p.2) ([lit 0], negFltMax) negFltMax_not_nan F ss.length _
          (hs st ss.length) _ rfl
        have m0' := parMaxFrom_start (f := F) (comp := fun a b : List α × α => lt b.2 a.2) (fun a b c h1 h2 => LawfulCmp.lt_trans' h2 h1)
          ([lit 0], negFltMax) (P.sched st ss.length) 0 ([lit 0], negFltMax) (Or.inl rfl)
        rw [← parMax] at m0'
        generalize parMax ([lit 0], negFltMax) F (fun a b : List α × α => lt b.2 a.2) (P.sched st ss.length) = m at h m0' m1' m3 m4
        have hall : ∀ s ∈ ss, lt m.2 (ehviAcq P pop m0 m1 s) = false := by
          intro s hs'
          obtain ⟨i, hi, rfl⟩ := List.getElem_of_mem hs'
          have := m4 i hi
          rw [hFi i hi] at this
          exact this
        by_cases hx : ∃ i < ss.length, m = F i ∧ lt negFltMax m.2 = true
        · obtain ⟨i, hi, rfl, hlt⟩ := hx
          rw [hFi i hi] at h hall hlt
          simp only at h hall hlt
          subst h
          exact Or.inl ⟨List.getElem_mem hi, hlt, hall⟩
        · have hm0 : m = ([lit 0], negFltMax) := by
            rcases m1' with e | ⟨i, hi, e⟩
            · exact e
            · rcases m0' with e' | hl
              · exact e'
              · exact absurd ⟨i, hi, e, hl⟩ hx
          subst hm0
          exact Or.inr ⟨h.symm, hall⟩
  · simp at h

/-- the data before an iteration of EHVI determine what it evaluates -/
theorem ehviChoice_of [LawfulArith α] {P : MuParams α M} {data : M → List (List α × List α)} (hL : LearnsFresh P.ops data) (hp : PsetOk P)
    (hs : ∀ st n, (P.sched st n).size = n) {d : Nat} {st s1 s2 : BoState α (MM α M)} {x : List α}
    (hl : st.samples.length = st.observations.length) (hO : ∀ v ∈ st.observations, v.length = 2 ∧ AllFinite v)
    (h1 : updateParetoModel P d st = .ok s1) (h2 : updateParetoData P s1 = .ok s2) (h3 : ehviPick P s2 = .point x) :
    ParetoOf 2 st.samples st.observations s2.model.paretoData ∧ FittedTo data 2 st.samples st.observations s2.model.models ∧
      EhviChoice P data st.samples st.observations x := by
  obtain ⟨sm, g1, g2, g3, g4, -⟩ := updateParetoModel_ok h1
  obtain ⟨o0, r, k1, k2, k3, k4⟩ := updateParetoData_ok h2
  obtain ⟨rfl, -⟩ := callPset_some k3
  have hfit := updateModels_fitted hL g1 hl (fun v hv => (hO v hv).1)
  have eS : s1.samples = st.samples := by rw [g2]
  have eO : s1.observations = st.observations := by rw [g2]
  rw [← g3] at hfit
  have hfit2 : FittedTo data 2 st.samples st.observations s2.model.models := by rw [k4]; exact hfit
  rw [eO] at k1
  have ho : o0.length = 2 := (hO o0 (List.mem_of_head? k1)).1
  have hpar : ParetoOf 2 st.samples st.observations s2.model.paretoData := by
    rw [k4]
    simp only
    rw [ho, eS, eO]
    exact paretoOf_pset hp (by norm_num) hl (by rintro e; rw [e] at k1; simp at k1) hO
  have hS : st.samples ≠ [] := by
    rintro e
    rw [e] at hl
    rw [List.length_eq_zero_iff.1 hl.symm] at k1
    simp at k1
  refine ⟨hpar, hfit2, ?_⟩
  obtain ⟨pop, m0, m1, results, e1, e2, e3, e4⟩ := ehviPick_spec hs h3
  refine ⟨s2.model.paretoData, m0, m1, pop, results, ehviAcq P pop m0 m1, hS, hpar, e1 ▸ hfit2, ?_, fun z => rfl, ?_, e4⟩
  · refine List.forall₂_iff_get.mpr ⟨e2.length_eq, fun i h1 h2 => ?_⟩
    obtain ⟨a, b⟩ := (List.forall₂_iff_get.mp e2).2 i h1 h2
    have hm : s2.model.paretoData.get ⟨i, h1⟩ ∈ s2.model.paretoData := List.get_mem _ _
    generalize s2.model.paretoData.get ⟨i, h1⟩ = p at a b hm
    have := (hO p.2.1 (List.of_mem_zip ((hpar.2.1 p.1 p.2.1).1 ⟨_, hm⟩).1).2).1
    generalize p.2.1 = w at a b this
    match w, this with
    | [y, z], _ =>
      simp at a b
      simp [a, b]
  · refine e3.imp fun p s h => ?_
    obtain ⟨i, hi⟩ := h
    exact ⟨s2, i, hi⟩

/-! ## the loop -/

/-- `n` complete iterations and then a criterion that fires -/
inductive MuLoops (P : MuParams α M) (body : BoState α (MM α M) → Res (BoState α (MM α M))) (afun : List α → α) :
    Nat → BoState α (MM α M) → BoState α (MM α M) → Prop
  | done {st st'} : boStop P.bo afun st = some (true, st') → MuLoops P body afun 0 st st'
  | step {n st s1 s2 st'} : boStop P.bo afun st = some (false, s1) → body s1 = .ok s2 → MuLoops P body afun n s2 st' →
      MuLoops P body afun (n + 1) st st'

theorem updateModels_empty {P : MuParams α M} {st : BoState α (MM α M)} (h : st.samples = []) : updateModels P st = .ub := by
  unfold updateModels
  rw [h]
  rfl

theorem muBody_empty (k : MuKind) {P : MuParams α M} {f : StateFun α (MM α M)} {afun : List α → α} {st : BoState α (MM α M)}
    (h : st.samples = []) : muBody k P f afun st = .ub := by
  cases k <;> simp only [muBody, ehviIteration, nsboIteration, updateParetoModel, updateModels_empty h, Res.andThen, Res.bind]

theorem muLoop_ok {k : MuKind} {P : MuParams α M} {f : StateFun α (MM α M)} {afun : List α → α} : ∀ {fuel : Nat} {st st' : BoState α (MM α M)},
    muLoop P (muBody k P f afun) afun fuel st = .ok st' → st.samples ≠ [] ∧ ∃ n, MuLoops P (muBody k P f afun) afun n st st' := by
  intro fuel
  induction fuel with
  | zero => intro st st' h; simp [muLoop] at h
  | succ fuel ih =>
    intro st st' h
    simp only [muLoop] at h
    by_cases he : st.samples.length = 0
    · rw [if_pos he, muBody_empty k (List.length_eq_zero_iff.mp he)] at h
      simp [Res.andThen, Res.bind] at h
    · rw [if_neg he] at h
      refine ⟨fun e => he (by rw [e]; rfl), ?_⟩
      cases hb : boStop P.bo afun st with
      | none => rw [hb] at h; simp at h
      | some p =>
        obtain ⟨b, s1⟩ := p
        rw [hb] at h
        cases b with
        | true =>
          simp only [Res.ok.injEq] at h
          subst h
          exact ⟨0, .done hb⟩
        | false =>
          simp only at h
          obtain ⟨s2, h1, h2⟩ := Res.andThen_ok h
          obtain ⟨-, n, hn⟩ := ih h2
          exact ⟨n + 1, .step hb h1 hn⟩

/-- what every complete iteration of either optimizer does to the data -/
theorem muBody_ok {k : MuKind} {P : MuParams α M} {f : StateFun α (MM α M)} {afun : List α → α} {st st' : BoState α (MM α M)}
    (h : muBody k P f afun st = .ok st') :
    ∃ x v, AllFinite v ∧ f.call st.trace x = .ret v ∧ st'.samples = st.samples ++ [x] ∧ st'.observations = st.observations ++ [v] ∧
      st'.currentIteration = st.currentIteration + 1 ∧ st'.totalIterations = st.totalIterations + 1 := by
  cases k with
  | ehvi =>
    obtain ⟨_, _, x, v, -, -, -, h1, h2, h3, h4, -, h5, h6⟩ := ehviIteration_ok h
    exact ⟨x, v, h1, h2, h3, h4, h5, h6⟩
  | nsbo =>
    obtain ⟨_, _, b, v, -, -, -, h1, h2, h3, h4, -, h5, h6⟩ := nsboIteration_ok h
    exact ⟨b.1, v, h1, h2, h3, h4, h5, h6⟩

/-- the data grow by one pair per iteration -/
theorem MuLoops.sum {k : MuKind} {P : MuParams α M} {f : StateFun α (MM α M)} {afun : List α → α} {n : Nat} {st st' : BoState α (MM α M)}
    (h : MuLoops P (muBody k P f afun) afun n st st') :
    ∃ xs vs, xs.length = n ∧ vs.length = n ∧ (∀ v ∈ vs, AllFinite v) ∧ st'.samples = st.samples ++ xs ∧ st'.observations = st.observations ++ vs ∧
      st'.currentIteration = st.currentIteration + n ∧ st'.totalIterations = st.totalIterations + n := by
  induction h with
  | done hb =>
    obtain ⟨as, rfl, -⟩ := boStop_spec hb
    exact ⟨[], [], rfl, rfl, by simp, by simp, by simp, by simp, by simp⟩
  | @step n st s1 s2 st' hb h1 h2 ih =>
    obtain ⟨as, rfl, -⟩ := boStop_spec hb
    obtain ⟨x, v, hf, -, e1, e2, e3, e4⟩ := muBody_ok h1
    obtain ⟨xs, vs, l1, l2, hfs, a1, a2, a3, a4⟩ := ih
    refine ⟨x :: xs, v :: vs, by simp [l1], by simp [l2], ?_, by rw [a1, e1]; simp, by rw [a2, e2]; simp, ?_, ?_⟩
    · simpa using ⟨hf, hfs⟩
    · rw [a3, e3]; push_cast; ring
    · rw [a4, e4]; push_cast; ring

theorem MuLoops.count_maxIterations {k : MuKind} {P : MuParams α M} {N : Int} (hP : P.bo.stop = [maxIterations N]) {f : StateFun α (MM α M)}
    {afun : List α → α} {n : Nat} {st st' : BoState α (MM α M)} (h : MuLoops P (muBody k P f afun) afun n st st') :
    (n : Int) = max (N - st.currentIteration) 0 := by
  induction h with
  | done hs =>
    rw [boStop_maxIterations hP] at hs
    simp only [Option.some.injEq, Prod.mk.injEq, decide_eq_true_eq] at hs
    have := hs.1
    omega
  | step hs h1 _ ih =>
    rw [boStop_maxIterations hP] at hs
    simp only [Option.some.injEq, Prod.mk.injEq, decide_eq_false_iff_not] at hs
    obtain ⟨hs, rfl⟩ := hs
    obtain ⟨-, -, -, -, -, -, e3, -⟩ := muBody_ok h1
    simp only at e3
    rw [e3] at ih
    push_cast
    omega

/-- EHVI: every evaluation of the loop is the documented choice on the data before it, and what is stored at the end belongs to the data
before the last evaluation -/
theorem MuLoops.ehvi [LawfulArith α] {P : MuParams α M} {data : M → List (List α × List α)} (hL : LearnsFresh P.ops data) (hp : PsetOk P)
    (hs : ∀ st n, (P.sched st n).size = n) {f : StateFun α (MM α M)} {afun : List α → α} {n : Nat} {st st' : BoState α (MM α M)}
    (h : MuLoops P (muBody .ehvi P f afun) afun n st st') (hl : st.samples.length = st.observations.length)
    (hO : ∀ v ∈ st.observations, AllFinite v) (hd : ∀ v ∈ st'.observations, v.length = 2) :
    (∀ j x, st.samples.length ≤ j → st'.samples[j]? = some x → EhviChoice P data (st'.samples.take j) (st'.observations.take j) x) ∧
    (n ≠ 0 → ParetoOf 2 st'.samples.dropLast st'.observations.dropLast st'.model.paretoData ∧
      FittedTo data 2 st'.samples.dropLast st'.observations.dropLast st'.model.models) ∧
    (n = 0 → st'.model = st.model) := by
  induction h with
  | done hb =>
    obtain ⟨as, rfl, -⟩ := boStop_spec hb
    refine ⟨fun j x hj hx => ?_, fun h => absurd rfl h, fun _ => rfl⟩
    simp only at hx
    have := (List.getElem?_eq_some_iff.mp hx).1
    omega
  | @step n st s1 s2 st' hb h1 h2 ih =>
    obtain ⟨as, rfl, -⟩ := boStop_spec hb
    obtain ⟨t1, t2, x, v, b1, b2, b3, hf, -, e1, e2, e3, -, -⟩ := ehviIteration_ok h1
    simp only at e1 e2
    obtain ⟨xs, vs, l1, l2, -, a1, a2, -, -⟩ := h2.sum
    have hO2 : ∀ w ∈ s2.observations, w.length = 2 := fun w hw => hd w (by rw [a2]; exact List.mem_append_left _ hw)
    have hO1 : ∀ w ∈ st.observations, w.length = 2 ∧ AllFinite w := fun w hw => ⟨hO2 w (by rw [e2]; exact List.mem_append_left _ hw), hO w hw⟩
    obtain ⟨c1, c2, c3⟩ := ehviChoice_of hL hp hs (st := { st with trace := st.trace ++ as }) hl hO1 b1 b2 b3
    simp only at c1 c2 c3
    obtain ⟨i1, i2, i3⟩ := ih (by rw [e1, e2]; simp [hl]) (by
      rw [e2]
      intro w hw
      rcases List.mem_append.mp hw with hw | hw
      · exact hO w hw
      · rw [List.mem_singleton.mp hw]; exact hf) hd
    refine ⟨fun j y hj hy => ?_, fun _ => ?_, fun h => absurd h (by omega)⟩
    · rcases Nat.lt_or_ge st.samples.length j with hj' | hj'
      · exact i1 j y (by rw [e1, List.length_append, List.length_singleton]; omega) hy
      · have : j = st.samples.length := by omega
        subst this
        rw [a1, e1, List.append_assoc, List.getElem?_append_right (Nat.le_refl _), Nat.sub_self] at hy
        simp only [List.cons_append, List.nil_append, List.getElem?_cons_zero, Option.some.injEq] at hy
        subst hy
        rw [a1, e1, a2, e2, List.append_assoc, List.append_assoc, List.take_left, hl, List.take_left]
        exact c3
    · by_cases hn : n = 0
      · have hm := i3 hn
        subst hn
        rw [List.length_eq_zero_iff.mp l1, List.append_nil] at a1
        rw [List.length_eq_zero_iff.mp l2, List.append_nil] at a2
        rw [a1, a2, e1, e2, List.dropLast_concat, List.dropLast_concat, hm, e3]
        exact ⟨c1, c2⟩
      · exact i2 hn

/-- what NSBO evaluates, and what its models belong to -/
theorem MuLoops.nsbo [LawfulCmp α] {P : MuParams α M} {data : M → List (List α × List α)} (hL : LearnsFresh P.ops data) {d : Nat}
    {f : StateFun α (MM α M)} {afun : List α → α} {n : Nat} {st st' : BoState α (MM α M)}
    (h : MuLoops P (muBody .nsbo P f afun) afun n st st') (hl : st.samples.length = st.observations.length)
    (hd : ∀ v ∈ st'.observations, v.length = d) :
    (n ≠ 0 → FittedTo data d st'.samples.dropLast st'.observations.dropLast st'.model.models) ∧ (n = 0 → st'.model = st.model) := by
  induction h with
  | done hb =>
    obtain ⟨as, rfl, -⟩ := boStop_spec hb
    exact ⟨fun h => absurd rfl h, fun _ => rfl⟩
  | @step n st s1 s2 st' hb h1 h2 ih =>
    obtain ⟨as, rfl, -⟩ := boStop_spec hb
    obtain ⟨t1, pv, best, v, b1, -, -, hf, -, e1, e2, e3, -, -⟩ := nsboIteration_ok h1
    simp only at e1 e2
    obtain ⟨xs, vs, l1, l2, -, a1, a2, -, -⟩ := h2.sum
    have hO1 : ∀ w ∈ st.observations, w.length = d := fun w hw => hd w (by rw [a2, e2]; simp [hw])
    obtain ⟨sm, g1, -, g3, -⟩ := updateParetoModel_ok b1
    have c2 := updateModels_fitted hL g1 hl hO1
    simp only at c2
    rw [← g3] at c2
    obtain ⟨i2, i3⟩ := ih (by rw [e1, e2]; simp [hl]) hd
    refine ⟨fun _ => ?_, fun h => absurd h (by omega)⟩
    by_cases hn : n = 0
    · have hm := i3 hn
      subst hn
      rw [List.length_eq_zero_iff.mp l1, List.append_nil] at a1
      rw [List.length_eq_zero_iff.mp l2, List.append_nil] at a2
      rw [a1, a2, e1, e2, List.dropLast_concat, List.dropLast_concat, hm, e3]
      exact c2
    · exact i2 hn

end Limbo
