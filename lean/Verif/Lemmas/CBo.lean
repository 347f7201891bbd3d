import Verif.Spec.CBo
import Verif.Lemmas.Bo

/-! Helper lemmas about the constrained optimizer. -/

namespace Limbo

set_option linter.unusedSectionVars false

variable {α M C : Type} [Scalar α]

/-! ## Splitting and filtering -/

theorem cbSplit_eq {d nb : Nat} {obs : List (List α)} {l : List (List (List α))} (h : cbSplit d nb obs = some l) :
    (∀ v ∈ obs, v.length = d + nb) ∧ l = [obs.map (objectivePart d), if 0 < nb then obs.map (constraintPart d) else []] := by
  unfold cbSplit at h
  by_cases hc : (obs.all (fun v => v.length == d + nb)) = true
  · rw [if_pos hc] at h
    refine ⟨by simpa using hc, ?_⟩
    simp only [Option.some.injEq] at h
    rw [← h]; rfl
  · rw [if_neg hc] at h; simp at h

theorem cbSplit_of {d nb : Nat} {obs : List (List α)} (h : ∀ v ∈ obs, v.length = d + nb) :
    cbSplit d nb obs = some [obs.map (objectivePart d), if 0 < nb then obs.map (constraintPart d) else []] := by
  unfold cbSplit
  rw [if_pos (by simpa using h)]; rfl

/-- the feasible observations -/
abbrev feas (d : Nat) (obs : List (List α)) : List (List α) := obs.filter (fun v => decide (FeasibleObs d v))

theorem cbProd_eq (v : List α) : cbProd v = productOf v := by cases v <;> rfl

theorem cbFeasible_map (d : Nat) (obs : List (List α)) :
    cbFeasible (obs.map (objectivePart d)) (obs.map (constraintPart d)) = some ((feas d obs).map (objectivePart d)) := by
  induction obs with
  | nil => rfl
  | cons v vs ih =>
    simp only [List.map_cons, cbFeasible]
    rw [ih]
    simp only [cbProd_eq]
    by_cases hv : FeasibleObs d v
    · have h2 : lt (lit 0) (productOf (constraintPart d v)) = true := hv
      simp [feas, h2, hv]
    · have h2 : lt (lit 0) (productOf (constraintPart d v)) = false := by
        simpa [FeasibleObs] using hv
      simp [feas, h2, hv]

/-- what `best_observation` leaves in `_obs[0]`: the feasible observations, or all if none is feasible -/
def shown (d : Nat) (obs : List (List α)) : List (List α) := if feas d obs = [] then obs else feas d obs

theorem shown_getLast (d : Nat) (obs : List (List α)) : (shown d obs).getLast? = latestFeasible d obs := by
  unfold shown latestFeasible
  by_cases h : feas d obs = []
  · rw [if_pos h, if_pos h]
  · rw [if_neg h, if_neg h]

theorem cbLook_eq {P : CBoParams α M C} {st st' : CBoState α M C} (h : cbLook P st = some st') :
    (∀ v ∈ st.base.observations, v.length = P.dimOutOf st.base.model + st.nb) ∧
    (0 < st.nb ∨ st.base.observations = []) ∧
    st' = { st with dimOut := P.dimOutOf st.base.model,
                    obs := [(shown (P.dimOutOf st.base.model) st.base.observations).map (objectivePart (P.dimOutOf st.base.model)),
                            if 0 < st.nb then st.base.observations.map (constraintPart (P.dimOutOf st.base.model)) else []] } := by
  unfold cbLook at h
  simp only at h
  split at h
  · next o c hs =>
    obtain ⟨hlen, he⟩ := cbSplit_eq hs
    simp only [List.cons.injEq, and_true] at he
    obtain ⟨rfl, rfl⟩ := he
    refine ⟨hlen, ?_⟩
    by_cases hnb : 0 < st.nb
    · refine ⟨Or.inl hnb, ?_⟩
      rw [if_pos hnb, cbFeasible_map] at h
      rw [if_pos hnb]
      unfold shown
      cases hf : feas (P.dimOutOf st.base.model) st.base.observations with
      | nil =>
        rw [hf] at h
        simp only [List.map_nil, Option.some.injEq] at h
        rw [if_pos rfl]; exact h.symm
      | cons a as =>
        rw [hf] at h
        simp only [List.map_cons, Option.some.injEq] at h
        rw [if_neg (by simp)]; exact h.symm
    · rw [if_neg hnb] at h
      cases ho : st.base.observations with
      | nil =>
        rw [ho] at h
        simp only [List.map_nil, cbFeasible, Option.some.injEq] at h
        refine ⟨Or.inr rfl, ?_⟩
        rw [← h, if_neg hnb]
        simp [shown]
      | cons a as => rw [ho] at h; simp [cbFeasible] at h
  · simp at h

theorem cbLook_of {P : CBoParams α M C} {st : CBoState α M C}
    (h : ∀ v ∈ st.base.observations, v.length = P.dimOutOf st.base.model + st.nb) (hnb : 0 < st.nb) :
    cbLook P st = some { st with
                    dimOut := P.dimOutOf st.base.model,
                    obs := [(shown (P.dimOutOf st.base.model) st.base.observations).map (objectivePart (P.dimOutOf st.base.model)),
                            st.base.observations.map (constraintPart (P.dimOutOf st.base.model))] } := by
  unfold cbLook
  simp only
  rw [cbSplit_of h, if_pos hnb]
  simp only
  rw [cbFeasible_map]
  unfold shown
  cases hf : feas (P.dimOutOf st.base.model) st.base.observations with
  | nil => simp
  | cons a as => simp

/-! ## Criteria and statistics only change `_obs` and `_dim_out` -/

/-- same data, models and number of constraints -/
structure CbSame (st st' : CBoState α M C) : Prop where
  samples : st'.base.samples = st.base.samples
  observations : st'.base.observations = st.base.observations
  model : st'.base.model = st.base.model
  cmodel : st'.cmodel = st.cmodel
  nb : st'.nb = st.nb

theorem CbSame.rfl' (st : CBoState α M C) : CbSame st st := ⟨rfl, rfl, rfl, rfl, rfl⟩
theorem CbSame.trans {a b c : CBoState α M C} (h : CbSame a b) (h' : CbSame b c) : CbSame a c :=
  ⟨h'.samples.trans h.samples, h'.observations.trans h.observations, h'.model.trans h.model, h'.cmodel.trans h.cmodel, h'.nb.trans h.nb⟩

theorem cbLook_same {P : CBoParams α M C} {st st' : CBoState α M C} (h : cbLook P st = some st') : CbSame st st' ∧ st'.base = st.base := by
  obtain ⟨-, -, rfl⟩ := cbLook_eq h
  exact ⟨⟨rfl, rfl, rfl, rfl, rfl⟩, rfl⟩

theorem cbTouch_same {P : CBoParams α M C} {l : Bool} {st st' : CBoState α M C} (h : cbTouch P l st = some st') :
    CbSame st st' ∧ st'.base = st.base ∧ (l = false → st' = st) := by
  unfold cbTouch at h
  cases l with
  | false => simp at h; subst h; exact ⟨CbSame.rfl' _, rfl, fun _ => rfl⟩
  | true => simp at h; exact ⟨(cbLook_same h).1, (cbLook_same h).2, by simp⟩

theorem cbChain_same (P : CBoParams α M C) (afun : List α → α) : ∀ (cs : List (CCriterion α M C)) (k : Nat) (b0 b : Bool)
    (st st' : CBoState α M C), cbChain P afun cs k b0 st = some (b, st') →
    CbSame st st' ∧ (∃ as, st'.base = { st.base with trace := st.base.trace ++ as } ∧ ∀ e ∈ as, ∃ j a, e = .asked j a) ∧
      ((∀ c ∈ cs, ∀ s a b l, c s a = some (b, l) → l = false) → st'.obs = st.obs) := by
  intro cs
  induction cs with
  | nil =>
    intro k b0 b st st' h
    simp only [cbChain, Option.some.injEq, Prod.mk.injEq] at h
    obtain ⟨-, rfl⟩ := h
    exact ⟨CbSame.rfl' _, ⟨[], by simp, by simp⟩, fun _ => rfl⟩
  | cons c cs ih =>
    intro k b0 b st st' h
    simp only [cbChain] at h
    cases b0 with
    | true =>
      simp only [if_true] at h
      obtain ⟨h1, h2, h3⟩ := ih _ _ _ _ _ h
      exact ⟨h1, h2, fun hn => h3 (fun c hc => hn c (List.mem_cons_of_mem _ hc))⟩
    | false =>
      simp only [Bool.false_eq_true, if_false] at h
      split at h
      · simp at h
      · next b1 l hc =>
        split at h
        · simp at h
        · next st1 ht =>
          obtain ⟨hs, hb, hn⟩ := cbTouch_same ht
          obtain ⟨h1, ⟨as, h2, h2'⟩, h3⟩ := ih _ _ _ _ _ h
          refine ⟨hs.trans ⟨h1.samples, h1.observations, h1.model, h1.cmodel, h1.nb⟩, ⟨.asked k b1 :: as, ?_, ?_⟩, fun hno => ?_⟩
          · rw [h2]; simp only [BoState.push, hb]; simp
          · intro e he
            rcases List.mem_cons.1 he with rfl | he
            · exact ⟨_, _, rfl⟩
            · exact h2' e he
          · rw [h3 (fun c hc => hno c (List.mem_cons_of_mem _ hc))]
            simp only
            rw [hn (hno c List.mem_cons_self _ _ _ _ hc)]

theorem cbLook_again {P : CBoParams α M C} {st st1 st2 : CBoState α M C} (h : cbLook P st = some st1) (h2 : cbLook P st1 = some st2) :
    st2 = st1 := by
  obtain ⟨-, -, rfl⟩ := cbLook_eq h
  obtain ⟨-, -, rfl⟩ := cbLook_eq h2
  rfl

/-- once looked, always looked -/
theorem cbStats_looked (P : CBoParams α M C) (afun : List α → α) : ∀ (ss : List (CStat α M C)) (st0 st st' : CBoState α M C),
    cbLook P st0 = some st → cbStats P afun ss st = some st' → st' = st := by
  intro ss
  induction ss with
  | nil => intro st0 st st' _ h; simp only [cbStats, Option.some.injEq] at h; exact h.symm
  | cons s ss ih =>
    intro st0 st st' h0 h
    simp only [cbStats] at h
    split at h
    · simp at h
    · next l hl =>
      split at h
      · simp at h
      · next st1 ht =>
        have e : st1 = st := by
          unfold cbTouch at ht
          cases l with
          | false => simpa using ht.symm
          | true => simp only [if_true] at ht; exact cbLook_again h0 ht
        subst e
        exact ih st0 _ _ h0 h

theorem cbStats_same (P : CBoParams α M C) (afun : List α → α) : ∀ (ss : List (CStat α M C)) (st st' : CBoState α M C),
    cbStats P afun ss st = some st' →
    (CbSame st st' ∧ st'.base = st.base) ∧ ((∀ c ∈ ss, ∀ s a l, c s a = some l → l = false) → st' = st) ∧
    ((∃ c ∈ ss, ∀ s a l, c s a = some l → l = true) → cbLook P st = some st') := by
  intro ss
  induction ss with
  | nil =>
    intro st st' h
    simp only [cbStats, Option.some.injEq] at h
    subst h
    exact ⟨⟨CbSame.rfl' _, rfl⟩, fun _ => rfl, by rintro ⟨c, hc, -⟩; simp at hc⟩
  | cons s ss ih =>
    intro st st' h
    simp only [cbStats] at h
    split at h
    · simp at h
    · next l hl =>
      split at h
      · simp at h
      · next st1 ht =>
        obtain ⟨hs, hb, hn⟩ := cbTouch_same ht
        obtain ⟨⟨h1, h1b⟩, h2, h3⟩ := ih _ _ h
        refine ⟨⟨hs.trans h1, h1b.trans hb⟩, fun hno => ?_, ?_⟩
        · rw [h2 (fun c hc => hno c (List.mem_cons_of_mem _ hc)), hn (hno s List.mem_cons_self _ _ _ hl)]
        · rintro ⟨c, hc, hcl⟩
          cases l with
          | true =>
            simp only [cbTouch, if_true] at ht
            rw [cbStats_looked P afun ss st st1 st' ht h]
            exact ht
          | false =>
            have e := hn rfl
            subst e
            rcases List.mem_cons.1 hc with rfl | hc
            · exact absurd (hcl _ _ _ hl) (by simp)
            · exact h3 ⟨c, hc, hcl⟩

/-! ## One iteration -/

theorem cbBase_ok {st st' : CBoState α M C} {r : Res (BoState α M)} (h : cbBase st r = .ok st') :
    ∃ b, r = .ok b ∧ st' = { st with base := b } := by
  cases r with
  | ok b => simp only [cbBase, Res.bind, Res.ok.injEq] at h; exact ⟨b, rfl, h.symm⟩
  | throw e b => simp [cbBase, Res.bind] at h
  | ub => simp [cbBase, Res.bind] at h
  | diverge => simp [cbBase, Res.bind] at h

theorem withModel_ok {st st' : BoState α M} {r : Res M} (h : withModel st r = .ok st') : ∃ m, r = .ok m ∧ st' = { st with model := m } := by
  cases r with
  | ok b => simp only [withModel, Res.bind, Res.ok.injEq] at h; exact ⟨b, rfl, h.symm⟩
  | throw e b => simp [withModel, Res.bind] at h
  | ub => simp [withModel, Res.bind] at h
  | diverge => simp [withModel, Res.bind] at h

theorem cbCmodel_ok {st st' : CBoState α M C} {r : Res C} (h : cbCmodel st r = .ok st') : ∃ c, r = .ok c ∧ st' = { st with cmodel := c } := by
  cases r with
  | ok b => simp only [cbCmodel, Res.bind, Res.ok.injEq] at h; exact ⟨b, rfl, h.symm⟩
  | throw e b => simp [cbCmodel, Res.bind] at h
  | ub => simp [cbCmodel, Res.bind] at h
  | diverge => simp [cbCmodel, Res.bind] at h

theorem cbModelAdd_ok {P : CBoParams α M C} {st st' : CBoState α M C} (h : cbModelAdd P st = .ok st') :
    ∃ x o m c, st.base.samples.getLast? = some x ∧ (st.obs[0]?).bind List.getLast? = some o ∧ P.ops.addSample x o st.base.model = .ok m ∧
      (if 0 < st.nb then ∃ w, (st.obs[1]?).bind List.getLast? = some w ∧ P.cops.addSample x w st.cmodel = .ok c else c = st.cmodel) ∧
      st' = { st with base := { st.base with model := m }, cmodel := c } := by
  unfold cbModelAdd at h
  split at h
  · next x o hx ho =>
    obtain ⟨s1, h1, h2⟩ := Res.andThen_ok h
    obtain ⟨b, hb, rfl⟩ := cbBase_ok h1
    obtain ⟨m, hm, rfl⟩ := withModel_ok hb
    simp only at h2
    by_cases hnb : 0 < st.nb
    · rw [if_pos hnb] at h2
      split at h2
      · next w hw =>
        obtain ⟨c, hc, rfl⟩ := cbCmodel_ok h2
        exact ⟨x, o, m, c, hx, ho, hm, by rw [if_pos hnb]; exact ⟨w, hw, hc⟩, rfl⟩
      · simp at h2
    · rw [if_neg hnb] at h2
      simp only [Res.ok.injEq] at h2
      exact ⟨x, o, m, st.cmodel, hx, ho, hm, by rw [if_neg hnb], h2.symm⟩
  · simp at h

theorem cbHp_ok {P : CBoParams α M C} {st st' : CBoState α M C} (h : cbHp P st = .ok st') :
    ∃ m c tr, st' = { st with base := { st.base with model := m, trace := st.base.trace ++ tr }, cmodel := c } ∧
      (∀ e ∈ tr, ∃ m, e = .hp m) ∧ (m = st.base.model ∨ P.ops.optHp st.base.model = .ok m) ∧ (c = st.cmodel ∨ P.cops.optHp st.cmodel = .ok c) := by
  unfold cbHp at h
  split at h
  · simp only at h
    obtain ⟨s1, h1, h2⟩ := Res.andThen_ok h
    obtain ⟨b, hb, rfl⟩ := cbBase_ok h1
    obtain ⟨m, hm, rfl⟩ := withModel_ok hb
    simp only [BoState.push] at hm h2
    by_cases hnb : 0 < st.nb
    · rw [if_pos hnb] at h2
      obtain ⟨c, hc, rfl⟩ := cbCmodel_ok h2
      exact ⟨m, c, [.hp st.base.model], rfl, by simp, Or.inr hm, Or.inr hc⟩
    · rw [if_neg hnb] at h2
      simp only [Res.ok.injEq] at h2
      exact ⟨m, st.cmodel, [.hp st.base.model], h2.symm, by simp, Or.inr hm, Or.inl rfl⟩
  · simp only [Res.ok.injEq] at h
    exact ⟨st.base.model, st.cmodel, [], by rw [← h]; simp, by simp, Or.inl rfl, Or.inl rfl⟩

/-- What one normal iteration does: a point `x` is evaluated to `v`; then statistics may rewrite `_obs`; the models get `_obs[0].back()`, `_obs[1].back()`. -/
theorem cbIteration_ok {P : CBoParams α M C} {f : StateFun α M} {afun : List α → α} {st st' : CBoState α M C}
    (h : cbIteration P f afun st = .ok st') :
    ∃ (x v : List α) (s1 s2 : CBoState α M C) (o : List α) (m1 m2 : M) (c1 c2 : C),
      AllFinite v ∧ s1.base.samples = st.base.samples ++ [x] ∧ s1.base.observations = st.base.observations ++ [v] ∧
      s1.base.model = st.base.model ∧ s1.cmodel = st.cmodel ∧ s1.nb = st.nb ∧ s1.obs = st.obs ∧
      cbStats P afun P.stats s1 = some s2 ∧
      (s2.obs[0]?).bind List.getLast? = some o ∧ P.ops.addSample x o st.base.model = .ok m1 ∧
      (if 0 < st.nb then ∃ w, (s2.obs[1]?).bind List.getLast? = some w ∧ P.cops.addSample x w st.cmodel = .ok c1 else c1 = st.cmodel) ∧
      (m2 = m1 ∨ P.ops.optHp m1 = .ok m2) ∧ (c2 = c1 ∨ P.cops.optHp c1 = .ok c2) ∧
      st'.base.samples = st.base.samples ++ [x] ∧ st'.base.observations = st.base.observations ++ [v] ∧
      st'.base.model = m2 ∧ st'.cmodel = c2 ∧ st'.nb = st.nb ∧ st'.obs = s2.obs ∧
      st'.base.currentIteration = st.base.currentIteration + 1 ∧ st'.base.totalIterations = st.base.totalIterations + 1 := by
  unfold cbIteration at h
  simp only at h
  split at h
  · simp at h
  · simp at h
  · next x hx =>
    obtain ⟨t1, h1, h⟩ := Res.andThen_ok h
    obtain ⟨t2, h2, h⟩ := Res.andThen_ok h
    obtain ⟨t3, h3, h⟩ := Res.andThen_ok h
    obtain ⟨t4, h4, h⟩ := Res.andThen_ok h
    obtain ⟨b, hb, rfl⟩ := cbBase_ok h1
    obtain ⟨v, -, hfin, rfl⟩ := evalAndAdd_ok hb
    unfold cbUpdateStats at h2
    split at h2
    · simp at h2
    · next s2 hs2 =>
      simp only [Res.ok.injEq] at h2
      subst h2
      obtain ⟨⟨hsame, hbase⟩, -, -⟩ := cbStats_same P afun _ _ _ hs2
      obtain ⟨x', o, m, c, hx', ho, hm, hc, rfl⟩ := cbModelAdd_ok h3
      obtain ⟨m2, c2, tr, rfl, -, hm2, hc2⟩ := cbHp_ok h4
      simp only [Res.ok.injEq] at h
      subst h
      have ex : x' = x := by
        rw [hsame.samples] at hx'
        simpa [BoState.push] using hx'.symm
      subst ex
      refine ⟨x', v, _, s2, o, m, m2, c, c2, hfin, ?_, ?_, ?_, ?_, ?_, ?_, hs2, ho, ?_, ?_, hm2, hc2, hsame.samples, hsame.observations,
        rfl, rfl, hsame.nb, rfl, ?_, ?_⟩
      · rfl
      · rfl
      · rfl
      · rfl
      · rfl
      · rfl
      · rw [hsame.model] at hm; exact hm
      · rw [hsame.nb, hsame.cmodel] at hc; exact hc
      · simp only [hbase]; rfl
      · simp only [hbase]; rfl

end Limbo
