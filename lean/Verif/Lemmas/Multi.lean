import Verif.Spec.Multi
import Verif.Lemmas.Bo3
import Verif.Lemmas.CBo
import Verif.Lemmas.Parego
import Verif.Props.Pareto
import Verif.Props.Par

/-! Lemmas about the multi-objective optimizers. -/

namespace Limbo

set_option linter.unusedSectionVars false

variable {α M : Type} [Scalar α]

/-! ## the models -/

theorem pushRow_eq : ∀ (cols : List (List (List α))) (v : List α), v.length = cols.length →
    pushRow cols v = some (List.zipWith (fun c y => c ++ [[y]]) cols v)
  | [], [], _ => rfl
  | [], _ :: _, h => by simp at h
  | c :: cols, [], h => by simp at h
  | c :: cols, y :: v, h => by
    have := pushRow_eq cols v (by simpa using h)
    simp [pushRow, this]

theorem pushRow_long : ∀ (cols : List (List (List α))) (v : List α), cols.length < v.length → pushRow cols v = none
  | _, [], h => by simp at h
  | [], _ :: _, _ => rfl
  | c :: cols, y :: v, h => by
    have := pushRow_long cols v (by simpa using h)
    simp [pushRow, this]

theorem pushRow_length : ∀ (cols : List (List (List α))) (v : List α) (cols' : List (List (List α))), pushRow cols v = some cols' →
    cols'.length = cols.length
  | cols, [], cols', h => by simp [pushRow] at h; simp [h]
  | [], _ :: _, cols', h => by simp [pushRow] at h
  | c :: cols, y :: v, cols', h => by
    simp only [pushRow, Option.map_eq_some_iff] at h
    obtain ⟨r, hr, rfl⟩ := h
    simp [pushRow_length cols v r hr]

theorem pushRows_spec (d : Nat) : ∀ (obs : List (List α)) (cols : List (List (List α))), (∀ v ∈ obs, v.length = d) → cols.length = d →
    ∃ cols', pushRows obs cols = some cols' ∧ cols'.length = d ∧ ∀ j c, cols[j]? = some c → cols'[j]? = some (c ++ column j obs)
  | [], cols, _, hc => ⟨cols, rfl, hc, fun j c h => by simpa [column] using h⟩
  | v :: obs, cols, hv, hc => by
    have hvl : v.length = cols.length := (hv v (by simp)).trans hc.symm
    have hl : (List.zipWith (fun c y => c ++ [[y]]) cols v).length = d := by simp [hvl, hc]
    obtain ⟨cols', h1, h2, h3⟩ := pushRows_spec d obs _ (fun w hw => hv w (by simp [hw])) hl
    refine ⟨cols', by simp [pushRows, pushRow_eq cols v hvl, h1], h2, fun j c hj => ?_⟩
    have hjl : j < cols.length := (List.getElem?_eq_some_iff.mp hj).1
    obtain ⟨y, hy⟩ : ∃ y, v[j]? = some y := ⟨_, List.getElem?_eq_getElem (hvl ▸ hjl)⟩
    have := h3 j (c ++ [[y]]) (by simp [List.getElem?_zipWith, hj, hy])
    rw [this]
    simp [column, hy]

theorem pushRows_long : ∀ (obs : List (List α)) (cols : List (List (List α))) (w : List α), w ∈ obs → cols.length < w.length →
    pushRows obs cols = none
  | [], _, w, hw, _ => by simp at hw
  | v :: obs, cols, w, hw, hl => by
    simp only [pushRows]
    cases hp : pushRow cols v with
    | none => rfl
    | some cols' =>
      rw [Option.bind_some]
      have hlen := pushRow_length cols v cols' hp
      rcases List.mem_cons.mp hw with rfl | hw
      · rw [pushRow_long cols w hl] at hp
        simp at hp
      · exact pushRows_long obs cols' w hw (by omega)

theorem computeModels_ok {P : MuParams α M} {fresh : M} {S : List (List α)} : ∀ {cols : List (List (List α))} {done ms : List M},
    computeModels P fresh S cols done = .ok ms →
    ∃ new, ms = done ++ new ∧ List.Forall₂ (fun c m => P.ops.compute S c fresh = .ok m) cols new
  | [], done, ms, h => by
    simp only [computeModels, Res.ok.injEq] at h
    exact ⟨[], by simp [h], .nil⟩
  | c :: cols, done, ms, h => by
    simp only [computeModels] at h
    cases hc : P.ops.compute S c fresh with
    | ok m =>
      rw [hc] at h
      obtain ⟨new, h1, h2⟩ := computeModels_ok h
      exact ⟨m :: new, by simp [h1], .cons hc h2⟩
    | throw e m => rw [hc] at h; simp at h
    | ub => rw [hc] at h; simp at h
    | diverge => rw [hc] at h; simp at h

theorem computeModels_def {P : MuParams α M} {fresh : M} {S : List (List α)} : ∀ (cols : List (List (List α))) (done : List M),
    (∀ c ∈ cols, ∃ m, P.ops.compute S c fresh = .ok m) → ∃ ms, computeModels P fresh S cols done = .ok ms
  | [], done, _ => ⟨done, rfl⟩
  | c :: cols, done, h => by
    obtain ⟨m, hm⟩ := h c (by simp)
    obtain ⟨ms, h2⟩ := computeModels_def cols (done ++ [m]) (fun c hc => h c (by simp [hc]))
    exact ⟨ms, by simp only [computeModels, hm, h2]⟩

/-- the state after `_update_models` differs in the models only -/
theorem updateModels_all (P : MuParams α M) (st : BoState α (MM α M)) (Q T : BoState α (MM α M) → Prop)
    (hq : ∀ ms, Q { st with model := { st.model with models := ms } }) (ht : ∀ ms, T { st with model := { st.model with models := ms } }) :
    (updateModels P st).All Q T := by
  unfold updateModels
  split
  · split
    · trivial
    · cases computeModels P _ st.samples _ [] with
      | ok ms => exact hq ms
      | throw e ms => exact ht ms
      | ub => trivial
      | diverge => trivial
  · trivial

theorem updateModels_ok {P : MuParams α M} {st st' : BoState α (MM α M)} (h : updateModels P st = .ok st') :
    ∃ s0 o0 cols ms, st.samples.head? = some s0 ∧ st.observations.head? = some o0 ∧
      pushRows st.observations (List.replicate o0.length []) = some cols ∧
      List.Forall₂ (fun c m => P.ops.compute st.samples c (P.ops.fresh s0.length 1) = .ok m) cols ms ∧
      st' = { st with model := { st.model with models := ms } } := by
  unfold updateModels at h
  split at h
  · next s0 o0 h1 h2 =>
    split at h
    · simp at h
    · next cols hc =>
      cases hm : computeModels P (P.ops.fresh s0.length 1) st.samples cols [] with
      | ok ms =>
        rw [hm] at h
        simp only [Res.bind, Res.ok.injEq] at h
        obtain ⟨new, e, hf⟩ := computeModels_ok hm
        rw [List.nil_append] at e
        subst e
        exact ⟨s0, o0, cols, ms, h1, h2, hc, hf, h.symm⟩
      | throw e ms => rw [hm] at h; simp [Res.bind] at h
      | ub => rw [hm] at h; simp [Res.bind] at h
      | diverge => rw [hm] at h; simp [Res.bind] at h
  · simp at h

theorem column_length (j : Nat) (O : List (List α)) : (column j O).length = O.length := by simp [column]

/-- a new model of one output learns the data it is given -/
def LearnsFresh (ops : ModelOps α M) (data : M → List (List α × List α)) : Prop :=
  ∀ i s v m, s.length = v.length → ops.compute s v (ops.fresh i 1) = .ok m → data m = s.zip v

theorem LawfulModel.learns {ops : ModelOps α M} {data : M → List (List α × List α)} (hL : LawfulModel ops data) : LearnsFresh ops data :=
  fun _ s v m hl h => hL.compute s v _ m hl h

theorem updateModels_fitted {P : MuParams α M} {data : M → List (List α × List α)} (hL : LearnsFresh P.ops data) {d : Nat}
    {st st' : BoState α (MM α M)} (h : updateModels P st = .ok st') (hl : st.samples.length = st.observations.length)
    (hd : ∀ v ∈ st.observations, v.length = d) : FittedTo data d st.samples st.observations st'.model.models := by
  obtain ⟨s0, o0, cols, ms, h1, h2, h3, h4, rfl⟩ := updateModels_ok h
  have ho : o0.length = d := hd o0 (List.mem_of_head? h2)
  obtain ⟨cols', e1, e2, e3⟩ := pushRows_spec d st.observations (List.replicate o0.length []) hd (by simp [ho])
  rw [h3] at e1
  cases e1
  refine ⟨by simp only; rw [← h4.length_eq, e2], fun j m hj => ?_⟩
  simp only at hj
  have hjl : j < d := by
    have := (List.getElem?_eq_some_iff.mp hj).1
    rw [← h4.length_eq, e2] at this
    exact this
  have hc := e3 j [] (by simp [ho, hjl])
  rw [List.nil_append] at hc
  have hjc : j < cols.length := by rw [e2]; exact hjl
  have hjm := (List.getElem?_eq_some_iff.mp hj)
  have := (List.forall₂_iff_get.mp h4).2 j hjc hjm.1
  rw [List.get_eq_getElem, List.get_eq_getElem] at this
  rw [List.getElem?_eq_getElem hjc, Option.some.injEq] at hc
  rw [hc, hjm.2] at this
  exact hL _ _ _ _ (by rw [column_length]; exact hl) this

/-! ## the Pareto set of the data -/

theorem callPset_some {P : MuParams α M} {K : Nat} {obj : PPoint α → List α} {st : BoState α (MM α M)} {v r : List (PPoint α)}
    (h : callPset P K obj st v = some r) : r = P.pset K st v ∧ ∃ x, v.head? = some x ∧ 1 < (obj x).length := by
  unfold callPset at h
  split at h
  · next x hx =>
    split_ifs at h with hl
    exact ⟨by simpa using h.symm, x, hx, hl⟩
  · simp at h

theorem updateParetoData_ok {P : MuParams α M} {st st' : BoState α (MM α M)} (h : updateParetoData P st = .ok st') :
    ∃ o0 r, st.observations.head? = some o0 ∧ st.samples.length = st.observations.length ∧
      callPset P 1 (fun p => p.2.1) st
        (List.zipWith (fun x y => (x, y, List.replicate o0.length (lit 0))) st.samples st.observations) = some r ∧
      st' = { st with model := { st.model with paretoData := r } } := by
  unfold updateParetoData at h
  split at h
  · simp at h
  · next o0 ho =>
    by_cases hl : st.samples.length = st.observations.length
    · rw [if_pos hl] at h
      split at h
      · next r hr => exact ⟨o0, r, ho, hl, hr, by simpa using h.symm⟩
      · simp at h
    · rw [if_neg hl] at h
      simp at h

theorem updateParetoData_all (P : MuParams α M) (st : BoState α (MM α M)) (Q T : BoState α (MM α M) → Prop)
    (hq : ∀ r, Q { st with model := { st.model with paretoData := r } }) : (updateParetoData P st).All Q T := by
  unfold updateParetoData
  split
  · trivial
  · split
    · split
      · next r _ => exact hq r
      · trivial
    · trivial

theorem zipWith_pack (S O : List (List α)) (z : List α) :
    List.zipWith (fun x y => (x, y, z)) S O = (S.zip O).map fun p => (p.1, p.2, z) := by
  simp [List.zip, List.map_zipWith]

theorem paretoOf_pset [LawfulCmp α] {P : MuParams α M} (hp : PsetOk P) {d : Nat} (hd : 1 < d) {st : BoState α (MM α M)} {S O : List (List α)}
    (hl : S.length = O.length) (hne : O ≠ []) (hO : ∀ v ∈ O, v.length = d ∧ AllFinite v) :
    ParetoOf d S O (P.pset 1 st (List.zipWith (fun x y => (x, y, List.replicate d (lit 0))) S O)) := by
  classical
  rw [zipWith_pack]
  set v := (S.zip O).map fun p => (p.1, p.2, List.replicate d (lit 0 : α)) with hv
  have hgood : ∀ p ∈ v, GoodObjs d p.2.1 := by
    intro p hp
    rw [hv, List.mem_map] at hp
    obtain ⟨q, hq, rfl⟩ := hp
    obtain ⟨h1, h2⟩ := hO q.2 (List.of_mem_zip hq).2
    exact ⟨h1, fun x hx => (h2 x hx).1⟩
  have hvne : v ≠ [] := by
    intro h
    have : v.length = 0 := by rw [h]; rfl
    simp [hv, hl] at this
    exact hne this
  obtain ⟨h1, -, -, -⟩ := C57_pareto_set d (fun p : PPoint α => p.2.1) v hgood _ (hp 1 _ (Or.inl ⟨rfl, rfl⟩) st v d hd hvne hgood)
  have hall : ∀ y, (∀ p ∈ v, ¬ Dominates p.2.1 y) ↔ ∀ y' ∈ O, ¬ Dominates y' y := by
    intro y
    constructor
    · intro h y' hy'
      obtain ⟨i, hi, rfl⟩ := List.getElem_of_mem hy'
      refine h (S[i]'(hl ▸ hi), O[i], List.replicate d (lit 0)) ?_
      rw [hv, List.mem_map]
      exact ⟨(S[i]'(hl ▸ hi), O[i]), List.mem_iff_getElem.mpr ⟨i, by simp [hl, hi], by simp⟩, rfl⟩
    · intro h p hp
      rw [hv, List.mem_map] at hp
      obtain ⟨q, hq, rfl⟩ := hp
      exact h _ (List.of_mem_zip hq).2
  have hmem : ∀ p, p ∈ P.pset 1 st v ↔ p ∈ v ∧ ∀ y' ∈ O, ¬ Dominates y' p.2.1 := by
    intro p
    rw [h1.mem_iff, List.mem_filter, decide_eq_true_eq, hall]
  refine ⟨fun x y z h => ?_, fun x y => ⟨?_, ?_⟩, fun q => decide (∀ y' ∈ O, ¬ Dominates y' q.2), ?_⟩
  · have := ((hmem _).1 h).1
    rw [hv, List.mem_map] at this
    obtain ⟨q, -, e⟩ := this
    simp only [Prod.mk.injEq] at e
    exact e.2.2.symm
  · rintro ⟨z, hz⟩
    obtain ⟨h1, h2⟩ := (hmem _).1 hz
    rw [hv, List.mem_map] at h1
    obtain ⟨q, hq, e⟩ := h1
    simp only [Prod.mk.injEq] at e
    exact ⟨by rw [← e.1, ← e.2.1]; exact hq, h2⟩
  · rintro ⟨h1, h2⟩
    exact ⟨_, (hmem (x, y, List.replicate d (lit 0))).2 ⟨by rw [hv, List.mem_map]; exact ⟨_, h1, rfl⟩, h2⟩⟩
  · have := h1.map fun p => (p.1, p.2.1)
    refine this.trans ?_
    rw [hv, List.filter_map, List.map_map]
    refine List.Perm.of_eq ?_
    refine (List.map_id _).trans ?_
    refine List.filter_congr fun q _ => ?_
    simp only [Function.comp_apply, decide_eq_decide]
    rw [← hv]
    exact hall q.2

/-! ## frames -/

theorem updateParetoModel_all (P : MuParams α M) (dim : Nat) (st : BoState α (MM α M)) (Q T : BoState α (MM α M) → Prop)
    (hq : ∀ mm : MM α M, Q { st with model := mm }) (ht : ∀ mm : MM α M, T { st with model := mm }) :
    (updateParetoModel P dim st).All Q T := by
  unfold updateParetoModel
  refine Res.All.andThen (Q := fun s => ∃ mm : MM α M, s = { st with model := mm })
    (updateModels_all P st _ _ (fun ms => ⟨_, rfl⟩) (fun ms => ht _)) ?_
  rintro s ⟨mm, rfl⟩
  split
  · exact hq _
  · exact hq _

theorem updateParetoModel_ok {P : MuParams α M} {dim : Nat} {st st' : BoState α (MM α M)} (h : updateParetoModel P dim st = .ok st') :
    ∃ st1, updateModels P st = .ok st1 ∧ st' = { st with model := st'.model } ∧ st'.model.models = st1.model.models ∧
      st'.model.paretoData = st.model.paretoData ∧
      st'.model.paretoModel = (match P.sferes with
        | none => st.model.paretoModel
        | some ea => (ea st1 dim).map fun p => (p.1, p.2, st1.model.models.map fun m => P.sigma m p.1)) := by
  unfold updateParetoModel at h
  obtain ⟨st1, h1, h2⟩ := Res.andThen_ok h
  obtain ⟨-, -, -, ms, -, -, -, -, rfl⟩ := updateModels_ok h1
  refine ⟨_, h1, ?_⟩
  cases hs : P.sferes with
  | none =>
    rw [hs] at h2
    simp only [Res.ok.injEq] at h2
    subst h2
    exact ⟨rfl, rfl, rfl, rfl⟩
  | some ea =>
    rw [hs] at h2
    simp only [Res.ok.injEq] at h2
    subst h2
    exact ⟨rfl, rfl, rfl, rfl⟩

theorem muFinish_ok {P : MuParams α M} {f : StateFun α (MM α M)} {afun : List α → α} {b : Bool} {x : List α} {st st' : BoState α (MM α M)}
    (h : muFinish P f afun b x st = .ok st') :
    ∃ v, f.call st.trace x = .ret v ∧ AllFinite v ∧ st'.samples = st.samples ++ [x] ∧ st'.observations = st.observations ++ [v] ∧
      st'.model = st.model ∧ st'.currentIteration = st.currentIteration + 1 ∧ st'.totalIterations = st.totalIterations + 1 ∧
      (b = true → 2 ≤ st.model.models.length) := by
  unfold muFinish at h
  obtain ⟨s1, h1, ha⟩ := Res.andThen_ok h
  obtain ⟨s2, h2, hc⟩ := Res.andThen_ok ha
  obtain ⟨s3, h3, he⟩ := Res.andThen_ok hc
  obtain ⟨v, hv, hfin, rfl⟩ := evalAndAdd_ok h1
  have e2 : s2 = { st with samples := st.samples ++ [x], observations := st.observations ++ [v], trace := st.trace ++ [.call x (.ret v)] } ∧
      (b = true → 2 ≤ st.model.models.length) := by
    by_cases hb : (b && decide (st.model.models.length < 2)) = true
    · rw [if_pos hb] at h2
      simp at h2
    · rw [if_neg hb, Res.ok.injEq] at h2
      refine ⟨h2.symm, fun e => ?_⟩
      subst e
      exact Nat.succ_le_of_lt (by simpa using hb)
  obtain ⟨rfl, hb⟩ := e2
  have e3 := updateStats_all P.bo afun
      { st with samples := st.samples ++ [x], observations := st.observations ++ [v], trace := st.trace ++ [.call x (.ret v)] }
      (fun s => s.samples = st.samples ++ [x] ∧ s.observations = st.observations ++ [v] ∧ s.model = st.model ∧
      s.currentIteration = st.currentIteration ∧ s.totalIterations = st.totalIterations) (fun _ => True)
    (fun logs _ => ⟨rfl, rfl, rfl, rfl, rfl⟩)
  rw [h3] at e3
  obtain ⟨a1, a2, a3, a4, a5⟩ := e3
  cases he
  exact ⟨v, hv, hfin, a1, a2, a3, by simp only; rw [a4], by simp only; rw [a5], hb⟩

/-- a normal iteration of either optimizer: one evaluation, the stored models belong to the data before it -/
theorem ehviIteration_ok {P : MuParams α M} {f : StateFun α (MM α M)} {afun : List α → α} {st st' : BoState α (MM α M)}
    (h : ehviIteration P f afun st = .ok st') :
    ∃ s1 s2 x v, updateParetoModel P f.dimIn st = .ok s1 ∧ updateParetoData P s1 = .ok s2 ∧ ehviPick P s2 = .point x ∧
      AllFinite v ∧ f.call st.trace x = .ret v ∧ st'.samples = st.samples ++ [x] ∧ st'.observations = st.observations ++ [v] ∧ st'.model = s2.model ∧
      st'.currentIteration = st.currentIteration + 1 ∧ st'.totalIterations = st.totalIterations + 1 := by
  unfold ehviIteration at h
  obtain ⟨s1, h1, h⟩ := Res.andThen_ok h
  obtain ⟨s2, h2, h⟩ := Res.andThen_ok h
  cases hp : ehviPick P s2 with
  | ub => rw [hp] at h; simp at h
  | threw => rw [hp] at h; simp at h
  | point x =>
    rw [hp] at h
    obtain ⟨v, hv, hfin, a1, a2, a3, a4, a5, -⟩ := muFinish_ok h
    obtain ⟨-, -, e1, -⟩ := updateParetoModel_ok h1
    obtain ⟨o0, r, -, -, -, e2⟩ := updateParetoData_ok h2
    have es : s2.samples = st.samples ∧ s2.observations = st.observations ∧ s2.trace = st.trace ∧ s2.currentIteration = st.currentIteration ∧
        s2.totalIterations = st.totalIterations := by rw [e2, e1]; exact ⟨rfl, rfl, rfl, rfl, rfl⟩
    exact ⟨s1, s2, x, v, h1, h2, hp, hfin, by rw [← es.2.2.1]; exact hv, by rw [a1, es.1], by rw [a2, es.2.1], a3, by rw [a4, es.2.2.2.1],
      by rw [a5, es.2.2.2.2]⟩

theorem nsboIteration_ok {P : MuParams α M} {f : StateFun α (MM α M)} {afun : List α → α} {st st' : BoState α (MM α M)}
    (h : nsboIteration P f afun st = .ok st') :
    ∃ s1 pv best v, updateParetoModel P f.dimIn st = .ok s1 ∧ callPset P 2 (fun p => p.2.2) s1 s1.model.paretoModel = some pv ∧ best ∈ pv ∧
      AllFinite v ∧ f.call st.trace best.1 = .ret v ∧ st'.samples = st.samples ++ [best.1] ∧ st'.observations = st.observations ++ [v] ∧
      st'.model = s1.model ∧ st'.currentIteration = st.currentIteration + 1 ∧ st'.totalIterations = st.totalIterations + 1 := by
  unfold nsboIteration at h
  obtain ⟨s1, h1, h⟩ := Res.andThen_ok h
  cases hp : callPset P 2 (fun p => p.2.2) s1 s1.model.paretoModel with
  | none => rw [hp] at h; simp at h
  | some pv =>
    rw [hp] at h
    simp only at h
    cases hb : pv[P.rand s1 % pv.length]? with
    | none => rw [hb] at h; simp at h
    | some best =>
      rw [hb] at h
      obtain ⟨v, hv, hfin, a1, a2, a3, a4, a5, -⟩ := muFinish_ok h
      obtain ⟨-, -, e1, -⟩ := updateParetoModel_ok h1
      have es : s1.samples = st.samples ∧ s1.observations = st.observations ∧ s1.trace = st.trace ∧ s1.currentIteration = st.currentIteration ∧
        s1.totalIterations = st.totalIterations := by rw [e1]; exact ⟨rfl, rfl, rfl, rfl, rfl⟩
      exact ⟨s1, pv, best, v, h1, hp, List.mem_of_getElem? hb, hfin, by rw [← es.2.2.1]; exact hv, by rw [a1, es.1], by rw [a2, es.2.1], a3,
        by rw [a4, es.2.2.2.1], by rw [a5, es.2.2.2.2]⟩

end Limbo
