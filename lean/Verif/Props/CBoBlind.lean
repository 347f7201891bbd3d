import Verif.Spec.CBoBlind
import Verif.Props.CBo

/-! # C113: the constrained optimizer does not use the results of its evaluations -/

namespace Limbo

variable {α M C : Type}

section
variable [Scalar α]

theorem SameButResults.rfl' (s : CBoState α M C) : SameButResults s s := ⟨rfl, rfl, rfl, rfl, rfl, rfl, rfl, rfl⟩

theorem cbChain_blind {P : CBoParams α M C} (afun : List α → α) : ∀ (cs : List (CCriterion α M C)) (k : Nat) (b0 : Bool) (s s' : CBoState α M C),
    (∀ c ∈ cs, ∀ s s' afun, SameButResults s s' → c s afun = c s' afun) → (∀ c ∈ cs, ∀ s a b l, c s a = some (b, l) → l = false) → SameButResults s s' →
    ∀ b b' t t', cbChain P afun cs k b0 s = some (b, t) → cbChain P afun cs k b0 s' = some (b', t') → b = b' ∧ SameButResults t t' := by
  intro cs
  induction cs with
  | nil =>
    intro k b0 s s' _ _ hs b b' t t' h h'
    simp only [cbChain, Option.some.injEq, Prod.mk.injEq] at h h'
    obtain ⟨rfl, rfl⟩ := h
    obtain ⟨rfl, rfl⟩ := h'
    exact ⟨rfl, hs⟩
  | cons c cs ih =>
    intro k b0 s s' hr hl hs b b' t t' h h'
    have hr' := fun c hc => hr c (List.mem_cons_of_mem _ hc)
    have hl' := fun c hc => hl c (List.mem_cons_of_mem _ hc)
    rw [cbChain] at h h'
    cases b0 with
    | true =>
      simp only [if_true] at h h'
      exact ih _ _ s s' hr' hl' hs b b' t t' h h'
    | false =>
      simp only [Bool.false_eq_true, if_false] at h h'
      rw [hr c List.mem_cons_self s s' afun hs] at h
      cases hc : c s' afun with
      | none => rw [hc] at h; cases h
      | some a =>
        obtain ⟨a, l⟩ := a
        have := hl c List.mem_cons_self _ _ _ _ hc
        subst this
        rw [hc] at h h'
        simp only [cbTouch, Bool.false_eq_true, if_false] at h h'
        exact ih _ _ _ _ hr' hl' (by exact ⟨hs.samples, hs.current, hs.total, hs.model, hs.cmodel, hs.nb, hs.dimOut, hs.obs⟩) b b' t t' h h'

theorem cbModelAdd_blind {P : CBoParams α M C} {s s' t t' : CBoState α M C} (hs : SameButResults s s') (h : cbModelAdd P s = .ok t) (h' : cbModelAdd P s' = .ok t') :
    SameButResults t t' := by
  obtain ⟨x, o, m, c, h1, h2, h3, h4, rfl⟩ := cbModelAdd_ok h
  obtain ⟨x', o', m', c', h1', h2', h3', h4', rfl⟩ := cbModelAdd_ok h'
  rw [hs.samples, h1'] at h1
  cases h1
  rw [hs.obs, h2'] at h2
  cases h2
  rw [hs.model, h3'] at h3
  cases h3
  refine ⟨hs.samples, hs.current, hs.total, rfl, ?_, hs.nb, hs.dimOut, hs.obs⟩
  simp only
  by_cases hn : 0 < s'.nb
  · rw [hs.nb, if_pos hn] at h4
    rw [if_pos hn] at h4'
    obtain ⟨w, a1, a2⟩ := h4
    obtain ⟨w', b1, b2⟩ := h4'
    rw [hs.obs, b1] at a1
    cases a1
    rw [hs.cmodel, b2] at a2
    cases a2
    rfl
  · rw [hs.nb, if_neg hn] at h4
    rw [if_neg hn] at h4'
    rw [h4, h4', hs.cmodel]

theorem cbHp_blind {P : CBoParams α M C} {s s' t t' : CBoState α M C} (hs : SameButResults s s') (h : cbHp P s = .ok t) (h' : cbHp P s' = .ok t') :
    SameButResults t t' := by
  unfold cbHp at h h'
  rw [hs.current] at h
  by_cases hp : 0 < P.hpPeriod ∧ (s'.base.currentIteration + 1).tmod P.hpPeriod = 0
  · rw [if_pos hp] at h h'
    simp only at h h'
    obtain ⟨u, hu, h⟩ := Res.andThen_ok h
    obtain ⟨u', hu', h'⟩ := Res.andThen_ok h'
    obtain ⟨a, ha, rfl⟩ := cbBase_ok hu
    obtain ⟨a', ha', rfl⟩ := cbBase_ok hu'
    simp only [withModel, BoState.push] at ha ha'
    rw [hs.model] at ha
    cases hm : P.ops.optHp s'.base.model with
    | ok m =>
      rw [hm] at ha ha'
      simp only [Res.bind, Res.ok.injEq] at ha ha'
      subst ha ha'
      have hs1 : SameButResults { s with base := { s.base.push (.hp s.base.model) with model := m } } { s' with base := { s'.base.push (.hp s'.base.model) with model := m } } :=
        ⟨hs.samples, hs.current, hs.total, rfl, hs.cmodel, hs.nb, hs.dimOut, hs.obs⟩
      simp only [hs.nb] at h
      by_cases hn : 0 < s'.nb
      · rw [if_pos hn] at h h'
        unfold cbCmodel at h h'
        simp only [hs.cmodel] at h
        cases hc : P.cops.optHp s'.cmodel with
        | ok c =>
          simp only [hc, Res.bind, Res.ok.injEq] at h h'
          subst h h'
          exact ⟨hs.samples, hs.current, hs.total, rfl, rfl, rfl, hs.dimOut, hs.obs⟩
        | throw e c => simp [hc, Res.bind] at h
        | ub => simp [hc, Res.bind] at h
        | diverge => simp [hc, Res.bind] at h
      · rw [if_neg hn] at h h'
        cases h; cases h'
        exact ⟨hs.samples, hs.current, hs.total, rfl, hs.cmodel, rfl, hs.dimOut, hs.obs⟩
    | throw e c => rw [hm] at ha; simp [Res.bind] at ha
    | ub => rw [hm] at ha; simp [Res.bind] at ha
    | diverge => rw [hm] at ha; simp [Res.bind] at ha
  · rw [if_neg hp] at h h'
    cases h; cases h'
    exact hs

theorem evalAndAdd_blind {f : StateFun α M} {x : List α} {b b' : BoState α M} (h : evalAndAdd f x b = .ok b') :
    b'.samples = b.samples ++ [x] ∧ b'.currentIteration = b.currentIteration ∧ b'.totalIterations = b.totalIterations ∧ b'.model = b.model := by
  unfold evalAndAdd at h
  simp only at h
  cases hc : f.call b.trace x with
  | threw => rw [hc] at h; cases h
  | ret v =>
    rw [hc] at h
    simp only [addNewSample] at h
    split at h
    · cases h
    · cases h
      exact ⟨rfl, rfl, rfl, rfl⟩

theorem cbIteration_blind {P : CBoParams α M C} (hN : NobodyLooks P) (hR : ReadsNoResults P) {f f' : StateFun α M} (hf : f.dimIn = f'.dimIn) (afun : List α → α)
    {s s' t t' : CBoState α M C} (hs : SameButResults s s') (h : cbIteration P f afun s = .ok t) (h' : cbIteration P f' afun s' = .ok t') : SameButResults t t' := by
  unfold cbIteration at h h'
  simp only at h h'
  have hs1 : SameButResults { s with base := s.base.push (.acqui s.base.model s.base.currentIteration) } { s' with base := s'.base.push (.acqui s'.base.model s'.base.currentIteration) } :=
    ⟨hs.samples, hs.current, hs.total, hs.model, hs.cmodel, hs.nb, hs.dimOut, hs.obs⟩
  rw [hR.start _ _ _ hs1, hR.inner _ _ _ _ _ hs1, hf] at h
  have e : (fun x g => P.acqui (s.base.push (.acqui s.base.model s.base.currentIteration)).model s.cmodel (s.base.push (.acqui s.base.model s.base.currentIteration)).currentIteration afun x g)
      = fun x g => P.acqui (s'.base.push (.acqui s'.base.model s'.base.currentIteration)).model s'.cmodel (s'.base.push (.acqui s'.base.model s'.base.currentIteration)).currentIteration afun x g := by
    simp only [BoState.push, hs.model, hs.cmodel, hs.current]
  rw [e] at h
  generalize P.acquiOpt _ _ _ _ = r at h h'
  cases r with
  | ub => cases h
  | threw => cases h
  | point x =>
    simp only at h h'
    obtain ⟨u1, hu1, h⟩ := Res.andThen_ok h
    obtain ⟨u1', hu1', h'⟩ := Res.andThen_ok h'
    obtain ⟨b, hb, rfl⟩ := cbBase_ok hu1
    obtain ⟨b', hb', rfl⟩ := cbBase_ok hu1'
    obtain ⟨a1, a2, a3, a4⟩ := evalAndAdd_blind hb
    obtain ⟨c1, c2, c3, c4⟩ := evalAndAdd_blind hb'
    obtain ⟨u2, hu2, h⟩ := Res.andThen_ok h
    obtain ⟨u2', hu2', h'⟩ := Res.andThen_ok h'
    have stat : ∀ {q : CBoState α M C} {w : CBoState α M C}, cbUpdateStats P afun q = .ok w → w = { q with base := q.base.push (.stat q.base.model) } := by
      intro q w hw
      unfold cbUpdateStats at hw
      split at hw
      · cases hw
      next w' hw' =>
      cases hw
      exact (cbStats_same P afun _ _ _ hw').2.1 hN.2
    have e2 := stat hu2
    have e2' := stat hu2'
    subst e2 e2'
    obtain ⟨u3, hu3, h⟩ := Res.andThen_ok h
    obtain ⟨u3', hu3', h'⟩ := Res.andThen_ok h'
    obtain ⟨u4, hu4, h⟩ := Res.andThen_ok h
    obtain ⟨u4', hu4', h'⟩ := Res.andThen_ok h'
    have k := cbHp_blind (cbModelAdd_blind (by
      refine ⟨?_, ?_, ?_, ?_, hs.cmodel, hs.nb, hs.dimOut, hs.obs⟩
      · show b.samples = b'.samples
        rw [a1, c1]; exact congrArg (· ++ [x]) hs.samples
      · show b.currentIteration = b'.currentIteration
        rw [a2, c2]; exact hs.current
      · show b.totalIterations = b'.totalIterations
        rw [a3, c3]; exact hs.total
      · show b.model = b'.model
        rw [a4, c4]; exact hs.model) hu3 hu3') hu4 hu4'
    cases h; cases h'
    exact ⟨k.samples, by simp only [k.current], by simp only [k.total], k.model, k.cmodel, k.nb, k.dimOut, k.obs⟩

theorem cbLoop_blind {P : CBoParams α M C} (hN : NobodyLooks P) (hR : ReadsNoResults P) {f f' : StateFun α M} (hf : f.dimIn = f'.dimIn) (afun : List α → α) :
    ∀ (n n' : Nat) (s s' t t' : CBoState α M C), SameButResults s s' → cbLoop P f afun n s = .ok t → cbLoop P f' afun n' s' = .ok t' → SameButResults t t' := by
  intro n
  induction n with
  | zero => intro n' s s' t t' _ h; cases h
  | succ n ih =>
    intro n' s s' t t' hs h h'
    cases n' with
    | zero => cases h'
    | succ n' =>
      rw [cbLoop] at h h'
      cases hc : cbChain P afun P.stop 0 false s with
      | none => rw [hc] at h; cases h
      | some a =>
        obtain ⟨a, u⟩ := a
        cases hc' : cbChain P afun P.stop 0 false s' with
        | none => rw [hc'] at h'; cases h'
        | some a' =>
          obtain ⟨a', u'⟩ := a'
          obtain ⟨rfl, hu⟩ := cbChain_blind afun P.stop 0 false s s' hR.stop hN.1 hs _ _ _ _ hc hc'
          rw [hc] at h
          rw [hc'] at h'
          cases a with
          | true => cases h; cases h'; exact hu
          | false =>
            simp only at h h'
            obtain ⟨v, hv, h⟩ := Res.andThen_ok h
            obtain ⟨v', hv', h'⟩ := Res.andThen_ok h'
            exact ih n' v v' t t' (cbIteration_blind hN hR hf afun hu hv hv') h h'

theorem evalAll_same {f f' : StateFun α M} : ∀ (pts : List (List α)) (b : BoState α M), (∀ x ∈ pts, ∀ tr, f.call tr x = f'.call tr x) → evalAll f pts b = evalAll f' pts b
  | [], _, _ => rfl
  | x :: xs, b, h => by
    have e : evalAndAdd f x b = evalAndAdd f' x b := by
      unfold evalAndAdd
      rw [h x List.mem_cons_self]
    rw [evalAll, evalAll, e]
    exact congrArg _ (funext fun b => evalAll_same xs b fun x hx => h x (List.mem_cons_of_mem _ hx))

/-- **C113**: if nobody looks at the best observation during the run, the constrained optimizer does not use what it observes.  Two runs from the same state, on
two objectives that agree on the initial points and may return anything else elsewhere, evaluate the same points and end with the same models. -/
theorem C113_results_ignored (P : CBoParams α M C) (hN : NobodyLooks P) (hR : ReadsNoResults P) (f f' : StateFun α M) (hd : f.dimIn = f'.dimIn) (hd' : f.dimOut = f'.dimOut)
    (nb : Nat) (afun : List α → α) (reset : Bool) (n n' : Nat) (st s s' : CBoState α M C)
    (hinit : ∀ b pts, P.initPts b f.dimIn = some pts → ∀ x ∈ pts, ∀ tr, f.call tr x = f'.call tr x)
    (h : cbOptimize P f nb afun reset n st = .ok s) (h' : cbOptimize P f' nb afun reset n' st = .ok s') :
    s.base.samples = s'.base.samples ∧ s.base.model = s'.base.model ∧ s.cmodel = s'.cmodel := by
  obtain ⟨b, s2, h1, h2, h3⟩ := cbOptimize_ok h
  obtain ⟨b', s2', h1', h2', h3'⟩ := cbOptimize_ok h'
  have e : cbInit P f reset (st.base.push (.start reset)) = cbInit P f' reset (st.base.push (.start reset)) := by
    unfold cbInit
    simp only [← hd]
    generalize (if reset = true then _ else _ : BoState α M) = q
    split
    · cases hp : P.initPts q f.dimIn with
      | none => rfl
      | some pts => exact evalAll_same pts q (hinit q pts hp)
    · rfl
  rw [e, h1'] at h1
  cases h1
  have e2 : s2 = s2' := by
    have : cbModelInit P f = cbModelInit P f' := by
      funext q
      unfold cbModelInit
      rw [hd, hd']
    rw [this, hd', h2'] at h2
    cases h2
    rfl
  subst e2
  have k := cbLoop_blind hN hR hd afun n n' s2 s2 s s' (SameButResults.rfl' s2) h3 h3'
  exact ⟨k.samples, k.model, k.cmodel⟩

end

/-! ## An example: an optimizer that decides by the data of its model -/

/-- The next point is the number of samples plus the sum of all objective values the model was told. -/
def exBlindP (stats : List (CStat F64 CbStore CbStore)) : CBoParams F64 CbStore CbStore :=
  { exCbP stats with
    acqui := fun m _ _ _ => fun _ _ => ((m.2.map fun p => p.2.headD (F64.of 0)).foldl (· + ·) (F64.of 0), none)
    acquiOpt := fun st f x _ => .point [F64.of st.base.samples.length + (f x false).1] }

/-- 10 at the initial point 0 and `k` elsewhere; everything is feasible. -/
def exBlindF (k : ℚ) : StateFun F64 CbStore where
  dimIn := 1
  dimOut := 1
  call := fun _ x => .ret [if x == [F64.of 0] then F64.of 10 else F64.of k, F64.of 1]

/-- The points evaluated on the objective `exBlindF k`. -/
def exBlindRun (stats : List (CStat F64 CbStore CbStore)) (k : ℚ) : Option (List (List F64)) :=
  match cbOptimize (exBlindP stats) (exBlindF k) 1 firstElem true 10 (newCBo 0 0 0 (0, []) (0, [])) with
  | .ok st => some st.base.samples
  | _ => none

theorem exBlindP_reads : ReadsNoResults (exBlindP []) where
  start := fun _ _ _ _ => rfl
  inner := fun s s' f x b h => by simp only [exBlindP, h.samples]
  stop := by
    intro c hc s s' afun h
    simp only [exBlindP, exCbP, List.mem_singleton] at hc
    subst hc
    simp only [h.current]

theorem exBlindP_looks : NobodyLooks (exBlindP []) := by
  refine ⟨?_, by simp [exBlindP, exCbP]⟩
  intro c hc s a b l h
  simp only [exBlindP, exCbP, List.mem_singleton] at hc
  subst hc
  simp only [Option.some.injEq, Prod.mk.injEq] at h
  exact h.2.symm

/-- The hypotheses are met: the runs on `exBlindF 3` and on `exBlindF k`, for every `k`, evaluate the same points. -/
example (k : ℚ) (s s' : CBoState F64 CbStore CbStore) (h : cbOptimize (exBlindP []) (exBlindF 3) 1 firstElem true 10 (newCBo 0 0 0 (0, []) (0, [])) = .ok s)
    (h' : cbOptimize (exBlindP []) (exBlindF k) 1 firstElem true 10 (newCBo 0 0 0 (0, []) (0, [])) = .ok s') : s.base.samples = s'.base.samples :=
  (C113_results_ignored _ exBlindP_looks exBlindP_reads (exBlindF 3) (exBlindF k) rfl rfl 1 firstElem true 10 10 _ s s' (by
    intro b pts hp x hx tr
    simp only [exBlindP, exCbP, Option.some.injEq] at hp
    subst hp
    rw [List.mem_singleton.1 hx]
    rfl) h h').1

/-- both runs do return -/
example : exBlindRun [] 3 = some [[F64.of 0], [F64.of 11], [F64.of 22]] ∧ exBlindRun [] 500 = some [[F64.of 0], [F64.of 11], [F64.of 22]] := by decide +kernel

/-- **C113**: the property one would expect, that the choice of points depends on what was observed, is regained with a statistic that looks at the best observation: with
it the same optimizer evaluates different points on two objectives which agree on the initial point. -/
theorem C113_used_with_reader : exBlindRun [exLooker] 3 = some [[F64.of 0], [F64.of 11], [F64.of 15]] ∧ exBlindRun [exLooker] 500 = some [[F64.of 0], [F64.of 11], [F64.of 512]] := by
  decide +kernel

end Limbo
