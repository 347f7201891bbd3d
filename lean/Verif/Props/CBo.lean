import Verif.Lemmas.CBo2
import Verif.Lemmas.F64Laws
import Verif.Props.Bo

/-!
# C59, C60, C70 — the constrained optimizer `CBOptimizer`

`cbRunOps P ops (newCBo it nb d m c) = some st` says: the user made the calls `ops` on a new optimizer (catching all exceptions).
-/

namespace Limbo

set_option linter.unusedSectionVars false

variable {α M C : Type}

/-! ## A concrete constrained optimizer for the examples -/

/-- Data of a model that stores its data and its output dimension. -/
abbrev CbStore := Nat × List (List F64 × List F64)

/-- ... its operations. -/
def cbStoreOps : ModelOps F64 CbStore where
  fresh := fun _ o => (o, [])
  compute := fun s v _ => .ok ((v.headD []).length, s.zip v)
  addSample := fun s v m => .ok (v.length, m.2 ++ [(s, v)])
  optHp := fun m => .ok m

theorem cbStoreOps_lawful : LawfulModel cbStoreOps (fun m => m.2) where
  fresh := fun _ _ => rfl
  compute := by intro s v m m' _ h; simp only [cbStoreOps, Res.ok.injEq] at h; rw [← h]
  addSample := by intro s v m m' h; simp only [cbStoreOps, Res.ok.injEq] at h; rw [← h]
  optHp := by intro m m' h; simp only [cbStoreOps, Res.ok.injEq] at h; rw [h]

theorem cbStoreOps_dim : LawfulDim cbStoreOps (fun m => m.1) where
  fresh := fun _ _ => rfl
  compute := by
    intro s v m m' d hne hlen h
    simp only [cbStoreOps, Res.ok.injEq] at h
    rw [← h]
    cases v with
    | nil => exact absurd rfl hne
    | cons a as => exact hlen a (by simp)
  addSample := by intro s v m m' h; simp only [cbStoreOps, Res.ok.injEq] at h; rw [← h]
  optHp := by intro m m' h; simp only [cbStoreOps, Res.ok.injEq] at h; rw [h]

/-- One initial point, two iterations; the points evaluated are 0, 1, 2. -/
def exCbP (stats : List (CStat F64 CbStore CbStore)) : CBoParams F64 CbStore CbStore where
  bounded := true
  hpPeriod := 1
  ops := cbStoreOps
  cops := cbStoreOps
  dimOutOf := fun m => m.1
  initPts := fun _ _ => some [[F64.of 0]]
  acqui := fun _ _ _ _ => fun _ _ => (F64.of 0, none)
  acquiOpt := fun st _ _ _ => .point [F64.of st.base.samples.length]
  startPt := fun _ _ => []
  stop := [fun st _ => some (decide (2 ≤ st.base.currentIteration), false)]
  stats := stats

/-- The `k`-th call returns the objective value `10 + k` and the constraint value 1, but 0 (infeasible) at the calls in `bad`. -/
def exCbF (bad : List Nat) : StateFun F64 CbStore where
  dimIn := 1
  dimOut := 1
  call := fun tr _ => .ret [F64.of (10 + (callPts tr).length), if bad.contains (callPts tr).length then F64.of 0 else F64.of 1]

/-- Run the example; the data of the two models. -/
def exCbRun (stats : List (CStat F64 CbStore CbStore)) (bad : List Nat) :
    Option (List (List F64 × List F64) × List (List F64 × List F64) × List (List F64)) :=
  match cbOptimize (exCbP stats) (exCbF bad) 1 firstElem true 10 (newCBo 0 0 0 (0, []) (0, [])) with
  | .ok st => some (st.base.model.2, st.cmodel.2, st.base.observations)
  | _ => none

/-- A statistic that looks at the best observation. -/
def exLooker : CStat F64 CbStore CbStore := fun _ _ => some true

section
variable [Scalar α]

/-! ## C70 stored data and budget -/

/-- After any history the stored pairs are exactly the finite evaluations (and user-supplied pairs) since the last reset, in order; every stored
observation is finite. -/
theorem C70_samples_observations_paired (P : CBoParams α M C) (it : Int) (nb d : Nat) (m : M) (c : C) (ops : List (CbOp α M C))
    (st : CBoState α M C) (h : cbRunOps P ops (newCBo it nb d m c) = some st) :
    st.base.samples.length = st.base.observations.length ∧ st.base.samples.zip st.base.observations = expect st.base.trace ∧
      ∀ v ∈ st.base.observations, AllFinite v := by
  have hd := cbRunOps_data P ops _ st (newCBo_data it nb d m c) h
  exact ⟨hd.len, hd.zip, hd.fin⟩

/-- With the single criterion `current_iteration >= N`, a run that returns normally has evaluated exactly `max N 0` points beyond the initial ones, and they are appended
to the data. -/
theorem C70_budget (P : CBoParams α M C) (N : Int) (look : Bool) (hP : P.stop = [fun st _ => some (decide (N ≤ st.base.currentIteration), look)])
    (f : StateFun α M) (nb : Nat) (afun : List α → α) (reset : Bool) (fuel : Nat) (st st' : CBoState α M C)
    (h : cbOptimize P f nb afun reset fuel st = .ok st') :
    ∃ b1, cbInit P f reset (st.base.push (.start reset)) = .ok b1 ∧ b1.observations <+: st'.base.observations ∧ b1.samples <+: st'.base.samples ∧
      st'.base.observations.length = b1.observations.length + N.toNat ∧ st'.base.samples.length = b1.samples.length + N.toNat := by
  obtain ⟨b1, s2, hb1, hs2, hl⟩ := cbOptimize_ok h
  obtain ⟨e1, e2, -, e4, -⟩ := cbModelInit_ok hs2
  have hc0 : b1.currentIteration = 0 := cbInit_currentIteration hb1
  refine ⟨b1, hb1, ?_⟩
  have key : ∀ (fuel : Nat) (s s' : CBoState α M C), 0 ≤ s.base.currentIteration → cbLoop P f afun fuel s = .ok s' →
      s.base.observations <+: s'.base.observations ∧ s.base.samples <+: s'.base.samples ∧
      s'.base.observations.length = s.base.observations.length + (N - s.base.currentIteration).toNat ∧
      s'.base.samples.length = s.base.samples.length + (N - s.base.currentIteration).toNat := by
    intro fuel
    induction fuel with
    | zero => intro s s' _ h; simp [cbLoop] at h
    | succ n ih =>
      intro s s' hpos h
      simp only [cbLoop] at h
      have hch : ∀ b s1, cbChain P afun P.stop 0 false s = some (b, s1) → b = decide (N ≤ s.base.currentIteration) := by
        intro b s1 hc
        rw [hP] at hc
        simp only [cbChain, Bool.false_eq_true, if_false] at hc
        split at hc
        · simp at hc
        · simp only [Option.some.injEq, Prod.mk.injEq] at hc; exact hc.1.symm
      split at h
      · simp at h
      · next s1 hs1 =>
        simp only [Res.ok.injEq] at h; subst h
        obtain ⟨hsame, -, -⟩ := cbChain_same P afun _ _ _ _ _ _ hs1
        have := hch _ _ hs1
        simp at this
        rw [hsame.samples, hsame.observations]
        refine ⟨List.prefix_refl _, List.prefix_refl _, by omega, by omega⟩
      · next s1 hs1 =>
        obtain ⟨hsame, ⟨as, hb, -⟩, -⟩ := cbChain_same P afun _ _ _ _ _ _ hs1
        have hlt := hch _ _ hs1
        simp at hlt
        obtain ⟨s3, h3, h4⟩ := Res.andThen_ok h
        obtain ⟨x, v, -, -, -, -, -, -, -, -, -, -, -, -, -, -, -, -, -, -, -, -, ex, ev, -, -, -, -, ei, -⟩ := cbIteration_ok h3
        have hci : s1.base.currentIteration = s.base.currentIteration := by rw [hb]
        obtain ⟨p1, p2, p3, p4⟩ := ih s3 s' (by rw [ei, hci]; omega) h4
        rw [hsame.samples] at ex
        rw [hsame.observations] at ev
        rw [ei, hci, ev] at p3
        rw [ei, hci, ex] at p4
        rw [ev] at p1
        rw [ex] at p2
        refine ⟨(List.prefix_append _ _).trans p1, (List.prefix_append _ _).trans p2, ?_, ?_⟩
        · rw [p3]; simp; omega
        · rw [p4]; simp; omega
  obtain ⟨p1, p2, p3, p4⟩ := key fuel s2 st' (by rw [e4]; simp [hc0]) hl
  rw [e1] at p2
  rw [e2] at p1
  rw [e4, e2] at p3
  rw [e4, e1] at p4
  simp only [hc0] at p3 p4
  refine ⟨p1, p2, ?_, ?_⟩
  · rw [p3]; simp
  · rw [p4]; simp

example : (exCbRun [] []).map (fun r => r.2.2.length) = some 3 := by decide +kernel

/-! ## C59 what the models are given -/

/-- If no criterion and no statistic looks at the best observation: every sample evaluated in the loop is given to the objective model with the
objective part of the *last initial* observation, whatever its own observation was; the constraint model likewise. -/
theorem C59_without_reader_models_are_stale (P : CBoParams α M C) (data : M → List (List α × List α)) (cdata : C → List (List α × List α))
    (hL : LawfulModel P.ops data) (hLc : LawfulModel P.cops cdata) (hN : NobodyLooks P)
    (it : Int) (nb0 d0 : Nat) (m : M) (c : C) (ops : List (CbOp α M C)) (st : CBoState α M C)
    (hst : cbRunOps P ops (newCBo it nb0 d0 m c) = some st)
    (f : StateFun α M) (nb : Nat) (afun : List α → α) (reset : Bool) (fuel : Nat) (b1 : BoState α M)
    (hb1 : cbInit P f reset (st.base.push (.start reset)) = .ok b1) (hne : b1.observations ≠ []) (st' : CBoState α M C)
    (h : cbOptimize P f nb afun reset fuel st = .ok st') :
    b1.observations <+: st'.base.observations ∧ (data st'.base.model).length = st'.base.samples.length ∧
    (∀ (k : Nat) x, st'.base.samples[k]? = some x →
      ∃ v, st'.base.observations[min k (b1.observations.length - 1)]? = some v ∧
        (data st'.base.model)[k]? = some (x, objectivePart f.dimOut v) ∧
        (0 < nb → (cdata st'.cmodel)[k]? = some (x, constraintPart f.dimOut v))) := by
  obtain ⟨b1', s2, hb1', hs2, hl⟩ := cbOptimize_ok h
  rw [hb1] at hb1'
  simp only [Res.ok.injEq] at hb1'
  subst hb1'
  have hd := cbRunOps_data P ops _ st (newCBo_data it nb0 d0 m c) hst
  have hd1 : DataInv b1 := by
    have := boInit_inv P.toBo f reset st.base hd
    rw [← cbInit_eq, hb1] at this
    exact this
  obtain ⟨e1, e2, e3, -, hor⟩ := cbModelInit_ok hs2
  simp only at e1 e2 e3 hor
  rcases hor with ⟨h0, -⟩ | ⟨-, -, hobs, hcomp, hccomp⟩
  · exact absurd h0 hne
  let I : CBoState α M C → Prop := fun s =>
    b1.observations <+: s.base.observations ∧ s.nb = nb ∧
    s.obs = [b1.observations.map (objectivePart f.dimOut), if 0 < nb then b1.observations.map (constraintPart f.dimOut) else []] ∧
    Fed (gStale (objectivePart f.dimOut) b1.observations.length) s.base.samples s.base.observations (data s.base.model) ∧
    (0 < nb → Fed (gStale (constraintPart f.dimOut) b1.observations.length) s.base.samples s.base.observations (cdata s.cmodel))
  have hG : ∀ (g : List α → List α) (k : Nat) v, b1.observations[k]? = some v → gStale g b1.observations.length b1.observations k = some (g v) := by
    intro g k v hv
    have hk : k < b1.observations.length := by
      rcases Nat.lt_or_ge k b1.observations.length with h | h
      · exact h
      · rw [List.getElem?_eq_none h] at hv; simp at hv
    unfold gStale
    rw [Nat.min_eq_left (by omega), hv]; rfl
  have hlast : ∀ (g : List α → List α) (O : List (List α)) (y : List α) (k : Nat), b1.observations <+: O → b1.observations.length ≤ k →
      (b1.observations.map g).getLast? = some y → gStale g b1.observations.length O k = some y := by
    intro g O y k hp hk hy
    unfold gStale
    rw [Nat.min_eq_right (by omega)]
    obtain ⟨t, rfl⟩ := hp
    have hpos : 0 < b1.observations.length := List.length_pos_of_ne_nil hne
    rw [List.getElem?_append_left (by omega)]
    rw [List.getLast?_eq_getElem?, List.getElem?_map, List.length_map] at hy
    exact hy
  have I0 : I s2 := by
    refine ⟨by rw [e2], e3, hobs, ?_, fun hnb => ?_⟩
    · rw [hL.compute _ _ _ _ (by simp [hd1.len]) hcomp, e1, e2]
      exact fed_zip _ hd1.len (hG _)
    · rw [hLc.compute _ _ _ _ (by simp [hd1.len]) (hccomp hnb), e1, e2]
      exact fed_zip _ hd1.len (hG _)
  have If : I st' := by
    refine cbLoop_ok_inv (I := I) ?_ ?_ fuel s2 st' I0 hl
    · intro s b s' hI hc
      obtain ⟨hsame, -, hno⟩ := cbChain_same P afun _ _ _ _ _ _ hc
      obtain ⟨i1, i2, i3, i4, i5⟩ := hI
      refine ⟨by rw [hsame.observations]; exact i1, by rw [hsame.nb]; exact i2, by rw [hno hN.1]; exact i3, ?_, ?_⟩
      · rw [hsame.samples, hsame.observations, hsame.model]; exact i4
      · rw [hsame.samples, hsame.observations, hsame.cmodel]; exact i5
    · intro s s' hI hi
      obtain ⟨i1, i2, i3, i4, i5⟩ := hI
      obtain ⟨x, v, s1, s2, o, m1, m2, c1, c2, -, -, -, -, -, -, a6, hstats, ho, hm1, hc1, hm2, hc2, r1, r2, r3, r4, r5, r6, -, -⟩ := cbIteration_ok hi
      obtain ⟨-, hno, -⟩ := cbStats_same P afun _ _ _ hstats
      rw [hno hN.2, a6, i3] at ho r6
      have hp : b1.observations <+: s.base.observations ++ [v] := i1.trans (List.prefix_append _ _)
      have hle : b1.observations.length ≤ s.base.observations.length := i1.length_le
      refine ⟨by rw [r2]; exact hp, by rw [r5]; exact i2, r6, ?_, fun hnb => ?_⟩
      · have hdm : data s'.base.model = data s.base.model ++ [(x, o)] := by
          rw [r3]
          rcases hm2 with rfl | hm2
          · exact hL.addSample _ _ _ _ hm1
          · rw [hL.optHp _ _ hm2]; exact hL.addSample _ _ _ _ hm1
        rw [hdm, r1, r2]
        refine i4.step (fun k hk => gStale_stable _ _ _ _ _ hk) (hlast _ _ _ _ hp hle ?_)
        simpa using ho
      · rw [i2, if_pos hnb, hno hN.2, a6, i3, if_pos hnb] at hc1
        obtain ⟨w, hw, hc1⟩ := hc1
        have hdm : cdata s'.cmodel = cdata s.cmodel ++ [(x, w)] := by
          rw [r4]
          rcases hc2 with rfl | hc2
          · exact hLc.addSample _ _ _ _ hc1
          · rw [hLc.optHp _ _ hc2]; exact hLc.addSample _ _ _ _ hc1
        rw [hdm, r1, r2]
        refine (i5 hnb).step (fun k hk => gStale_stable _ _ _ _ _ hk) (hlast _ _ _ _ hp hle ?_)
        simpa using hw
  obtain ⟨i1, -, -, i4, i5⟩ := If
  refine ⟨i1, i4.lenD, ?_⟩
  intro k x hx
  obtain ⟨y, hy, hD⟩ := i4.get k x hx
  unfold gStale at hy
  rw [Option.map_eq_some_iff] at hy
  obtain ⟨v, hv, rfl⟩ := hy
  refine ⟨v, hv, hD, fun hnb => ?_⟩
  obtain ⟨w, hw, hDc⟩ := (i5 hnb).get k x hx
  unfold gStale at hw
  rw [hv] at hw
  simp only [Option.map_some, Option.some.injEq] at hw
  rw [hw]; exact hDc

/-- Hence the property is false: an optimizer whose three observations are 10, 11, 12, and whose objective model has been told 10, 10, 10. -/
theorem C59_false :
    exCbRun [] [] = some ([([F64.of 0], [F64.of 10]), ([F64.of 1], [F64.of 10]), ([F64.of 2], [F64.of 10])],
      [([F64.of 0], [F64.of 1]), ([F64.of 1], [F64.of 1]), ([F64.of 2], [F64.of 1])],
      [[F64.of 10, F64.of 1], [F64.of 11, F64.of 1], [F64.of 12, F64.of 1]]) := by decide +kernel

example : NobodyLooks (exCbP []) := by
  refine ⟨?_, by simp [exCbP]⟩
  intro c hc s a b l h
  simp only [exCbP, List.mem_singleton] at hc
  subst hc
  simp only [Option.some.injEq, Prod.mk.injEq] at h
  exact h.2.symm
example : LawfulModel (exCbP []).ops (fun m => m.2) := cbStoreOps_lawful

/-- If some statistic always looks at the best observation (and there are constraints): the constraint model is right, and the objective model is
given, with every sample evaluated in the loop, the objective part of the latest *feasible* observation (of the latest observation if none is
feasible so far). -/
theorem C59_with_reader (P : CBoParams α M C) (data : M → List (List α × List α)) (cdata : C → List (List α × List α))
    (hL : LawfulModel P.ops data) (hLc : LawfulModel P.cops cdata) (hD : LawfulDim P.ops P.dimOutOf) (hS : AStatisticLooks P)
    (it : Int) (nb0 d0 : Nat) (m : M) (c : C) (ops : List (CbOp α M C)) (st : CBoState α M C)
    (hst : cbRunOps P ops (newCBo it nb0 d0 m c) = some st)
    (f : StateFun α M) (nb : Nat) (hnb : 0 < nb) (afun : List α → α) (reset : Bool) (fuel : Nat) (b1 : BoState α M)
    (hb1 : cbInit P f reset (st.base.push (.start reset)) = .ok b1) (st' : CBoState α M C)
    (h : cbOptimize P f nb afun reset fuel st = .ok st') :
    (data st'.base.model).length = st'.base.samples.length ∧
    cdata st'.cmodel = st'.base.samples.zip (st'.base.observations.map (constraintPart f.dimOut)) ∧
    (∀ (k : Nat) x v, k < b1.observations.length → st'.base.samples[k]? = some x → st'.base.observations[k]? = some v →
      (data st'.base.model)[k]? = some (x, objectivePart f.dimOut v)) ∧
    (∀ (k : Nat) x, b1.observations.length ≤ k → st'.base.samples[k]? = some x →
      ∃ v, latestFeasible f.dimOut (st'.base.observations.take (k + 1)) = some v ∧
        (data st'.base.model)[k]? = some (x, objectivePart f.dimOut v)) := by
  obtain ⟨b1', s2, hb1', hs2, hl⟩ := cbOptimize_ok h
  rw [hb1] at hb1'
  simp only [Res.ok.injEq] at hb1'
  subst hb1'
  have hd := cbRunOps_data P ops _ st (newCBo_data it nb0 d0 m c) hst
  have hd1 : DataInv b1 := by
    have := boInit_inv P.toBo f reset st.base hd
    rw [← cbInit_eq, hb1] at this
    exact this
  obtain ⟨e1, e2, e3, -, hor⟩ := cbModelInit_ok hs2
  simp only at e1 e2 e3 hor
  let d := f.dimOut
  let I : CBoState α M C → Prop := fun s =>
    b1.observations.length ≤ s.base.observations.length ∧ s.nb = nb ∧ P.dimOutOf s.base.model = d ∧
    Fed (gFeas d b1.observations.length) s.base.samples s.base.observations (data s.base.model) ∧
    Fed (gTrue (constraintPart d)) s.base.samples s.base.observations (cdata s.cmodel)
  have I0 : I s2 := by
    rcases hor with ⟨h0, hm, hc, -⟩ | ⟨hne, hlen, hobs, hcomp, hccomp⟩
    · have hs0 : b1.samples = [] := by
        have := hd1.len; rw [h0] at this; simpa using this
      refine ⟨by rw [e2], e3, by rw [hm]; exact hD.fresh _ _, ?_, ?_⟩
      · rw [hm, hL.fresh, e1, e2, h0, hs0]
        exact ⟨rfl, rfl, by simp⟩
      · rw [hc hnb, hLc.fresh, e1, e2, h0, hs0]
        exact ⟨rfl, rfl, by simp⟩
    · refine ⟨by rw [e2], e3, ?_, ?_, ?_⟩
      · refine hD.compute _ _ _ _ d (by simpa using hne) ?_ hcomp
        intro w hw
        obtain ⟨v, hv, rfl⟩ := List.mem_map.1 hw
        simp [objectivePart, hlen v hv, d]
      · rw [hL.compute _ _ _ _ (by simp [hd1.len]) hcomp, e1, e2]
        refine fed_zip _ hd1.len ?_
        intro k v hv
        have hk : k < b1.observations.length := by
          rcases Nat.lt_or_ge k b1.observations.length with h | h
          · exact h
          · rw [List.getElem?_eq_none h] at hv; simp at hv
        unfold gFeas
        rw [if_pos hk, hv]; rfl
      · rw [hLc.compute _ _ _ _ (by simp [hd1.len]) (hccomp hnb), e1, e2]
        refine fed_zip _ hd1.len ?_
        intro k v hv
        unfold gTrue
        rw [hv]; rfl
  have If : I st' := by
    refine cbLoop_ok_inv (I := I) ?_ ?_ fuel s2 st' I0 hl
    · intro s b s' hI hc
      obtain ⟨hsame, -, -⟩ := cbChain_same P afun _ _ _ _ _ _ hc
      obtain ⟨i1, i2, i3, i4, i5⟩ := hI
      refine ⟨by rw [hsame.observations]; exact i1, by rw [hsame.nb]; exact i2, by rw [hsame.model]; exact i3, ?_, ?_⟩
      · rw [hsame.samples, hsame.observations, hsame.model]; exact i4
      · rw [hsame.samples, hsame.observations, hsame.cmodel]; exact i5
    · intro s s' hI hi
      obtain ⟨i1, i2, i3, i4, i5⟩ := hI
      obtain ⟨x, v, s1, s2, o, m1, m2, c1, c2, -, a1, a2, a3, a4, a5, a6, hstats, ho, hm1, hc1, hm2, hc2, r1, r2, r3, r4, r5, r6, -, -⟩ := cbIteration_ok hi
      obtain ⟨-, -, hlook⟩ := cbStats_same P afun _ _ _ hstats
      obtain ⟨hsz, -, hs2⟩ := cbLook_eq (hlook hS)
      rw [a2, a3, a5, i2, i3] at hsz
      have hs2obs : s2.obs = [(shown d (s.base.observations ++ [v])).map (objectivePart d), (s.base.observations ++ [v]).map (constraintPart d)] := by
        rw [hs2]
        simp only [a2, a3, a5, i2, i3, if_pos hnb]
      rw [hs2obs] at ho
      rw [i2, if_pos hnb, hs2obs] at hc1
      obtain ⟨w, hw, hc1⟩ := hc1
      simp only [List.getElem?_cons_zero, Option.bind_some] at ho
      rw [List.getLast?_map, shown_getLast, Option.map_eq_some_iff] at ho
      obtain ⟨ov, hov, rfl⟩ := ho
      have hmem : ov ∈ s.base.observations ++ [v] := by
        unfold latestFeasible at hov
        split at hov
        · exact List.mem_of_getLast? hov
        · exact (List.mem_filter.1 (List.mem_of_getLast? hov)).1
      have hlen : (objectivePart d ov).length = d := by
        simp [objectivePart, hsz ov hmem]
      refine ⟨by rw [r2]; simp; omega, by rw [r5]; exact i2, ?_, ?_, ?_⟩
      · rw [r3]
        rcases hm2 with rfl | hm2
        · rw [hD.addSample _ _ _ _ hm1]; exact hlen
        · rw [hD.optHp _ _ hm2, hD.addSample _ _ _ _ hm1]; exact hlen
      · have hdm : data s'.base.model = data s.base.model ++ [(x, objectivePart d ov)] := by
          rw [r3]
          rcases hm2 with rfl | hm2
          · exact hL.addSample _ _ _ _ hm1
          · rw [hL.optHp _ _ hm2]; exact hL.addSample _ _ _ _ hm1
        rw [hdm, r1, r2]
        refine i4.step (fun k hk => gFeas_stable _ _ _ _ _ hk) ?_
        unfold gFeas
        rw [if_neg (by omega), List.take_of_length_le (by simp), hov]; rfl
      · have hdm : cdata s'.cmodel = cdata s.cmodel ++ [(x, w)] := by
          rw [r4]
          rcases hc2 with rfl | hc2
          · exact hLc.addSample _ _ _ _ hc1
          · rw [hLc.optHp _ _ hc2]; exact hLc.addSample _ _ _ _ hc1
        rw [hdm, r1, r2]
        refine i5.step (fun k hk => gTrue_stable _ _ _ _ hk) ?_
        unfold gTrue
        simpa using hw
  obtain ⟨i1, -, -, i4, i5⟩ := If
  refine ⟨i4.lenD, ?_, ?_, ?_⟩
  · refine List.ext_getElem? fun k => ?_
    rcases Nat.lt_or_ge k st'.base.samples.length with hk | hk
    · obtain ⟨y, hy, hD⟩ := i5.get k _ (List.getElem?_eq_getElem hk)
      rw [hD]
      symm
      rw [List.getElem?_zip_eq_some]
      refine ⟨List.getElem?_eq_getElem hk, ?_⟩
      rw [List.getElem?_map]
      exact hy
    · rw [List.getElem?_eq_none (by rw [i5.lenD]; exact hk), List.getElem?_eq_none (by simp; omega)]
  · intro k x v hk hx hv
    obtain ⟨y, hy, hD⟩ := i4.get k x hx
    unfold gFeas at hy
    rw [if_pos hk, hv] at hy
    simp only [Option.map_some, Option.some.injEq] at hy
    rw [hy]; exact hD
  · intro k x hk hx
    obtain ⟨y, hy, hD⟩ := i4.get k x hx
    unfold gFeas at hy
    rw [if_neg (by omega), Option.map_eq_some_iff] at hy
    obtain ⟨v, hv, rfl⟩ := hy
    exact ⟨v, hv, hD⟩

/-- In particular, with such a statistic and if all observations are feasible, both models are in sync with the data. -/
theorem C59_in_sync_if_all_feasible_partial (P : CBoParams α M C) (data : M → List (List α × List α)) (cdata : C → List (List α × List α))
    (hL : LawfulModel P.ops data) (hLc : LawfulModel P.cops cdata) (hD : LawfulDim P.ops P.dimOutOf) (hS : AStatisticLooks P)
    (it : Int) (nb0 d0 : Nat) (m : M) (c : C) (ops : List (CbOp α M C)) (st : CBoState α M C)
    (hst : cbRunOps P ops (newCBo it nb0 d0 m c) = some st)
    (f : StateFun α M) (nb : Nat) (hnb : 0 < nb) (afun : List α → α) (reset : Bool) (fuel : Nat) (st' : CBoState α M C)
    (h : cbOptimize P f nb afun reset fuel st = .ok st') (hf : ∀ v ∈ st'.base.observations, FeasibleObs f.dimOut v) :
    data st'.base.model = st'.base.samples.zip (st'.base.observations.map (objectivePart f.dimOut)) ∧
    cdata st'.cmodel = st'.base.samples.zip (st'.base.observations.map (constraintPart f.dimOut)) := by
  obtain ⟨b1, -, hb1, -, -⟩ := cbOptimize_ok h
  obtain ⟨h1, h2, h3, h4⟩ := C59_with_reader P data cdata hL hLc hD hS it nb0 d0 m c ops st hst f nb hnb afun reset fuel b1 hb1 st' h
  refine ⟨?_, h2⟩
  have hd := cbRunOps_data P ops _ st (newCBo_data it nb0 d0 m c) hst
  have hlen : st'.base.samples.length = st'.base.observations.length := by
    have := cbOptimize_data P f nb afun reset fuel st hd
    rw [h] at this
    exact this.len
  refine List.ext_getElem? fun k => ?_
  rcases Nat.lt_or_ge k st'.base.samples.length with hk | hk
  · have hk' : k < st'.base.observations.length := by omega
    have hgoal : (data st'.base.model)[k]? = some (st'.base.samples[k], objectivePart f.dimOut st'.base.observations[k]) := by
      rcases Nat.lt_or_ge k b1.observations.length with hb | hb
      · exact h3 k _ _ hb (List.getElem?_eq_getElem hk) (List.getElem?_eq_getElem hk')
      · obtain ⟨v, hv, hD⟩ := h4 k _ hb (List.getElem?_eq_getElem hk)
        have hall : (st'.base.observations.take (k + 1)).filter (fun v => decide (FeasibleObs f.dimOut v)) = st'.base.observations.take (k + 1) := by
          rw [List.filter_eq_self]
          intro w hw
          simpa using hf w (List.mem_of_mem_take hw)
        unfold latestFeasible at hv
        rw [hall] at hv
        have hv' : (st'.base.observations.take (k + 1)).getLast? = some v := by
          split at hv <;> exact hv
        rw [List.getLast?_eq_getElem?, List.length_take, Nat.min_eq_left (by omega), List.getElem?_take_of_lt (by omega)] at hv'
        simp only [Nat.add_sub_cancel] at hv'
        rw [List.getElem?_eq_getElem hk'] at hv'
        simp only [Option.some.injEq] at hv'
        rw [hv']; exact hD
    rw [hgoal]
    symm
    rw [List.getElem?_zip_eq_some]
    exact ⟨List.getElem?_eq_getElem hk, by simp [hk']⟩
  · rw [List.getElem?_eq_none (by rw [h1]; exact hk), List.getElem?_eq_none (by simp; omega)]

/-- A looking statistic, all points feasible: in sync. -/
example : exCbRun [exLooker] [] = some ([([F64.of 0], [F64.of 10]), ([F64.of 1], [F64.of 11]), ([F64.of 2], [F64.of 12])],
      [([F64.of 0], [F64.of 1]), ([F64.of 1], [F64.of 1]), ([F64.of 2], [F64.of 1])],
      [[F64.of 10, F64.of 1], [F64.of 11, F64.of 1], [F64.of 12, F64.of 1]]) := by decide +kernel
example : AStatisticLooks (exCbP [exLooker]) :=
  ⟨exLooker, by simp [exCbP], by intro s a l h; simp only [exLooker, Option.some.injEq] at h; exact h.symm⟩
example : LawfulDim (exCbP [exLooker]).ops (exCbP [exLooker]).dimOutOf := cbStoreOps_dim
example : ∀ v ∈ [[F64.of 10, F64.of 1], [F64.of 11, F64.of 1], [F64.of 12, F64.of 1]], FeasibleObs 1 v := by
  simp only [FeasibleObs]; decide +kernel

/-- A looking statistic and an infeasible second point: its sample 1 is recorded with the value 10 of the first one. -/
theorem C59_false_with_reader :
    (exCbRun [exLooker] [1]).map (fun r => (r.1, r.2.2)) =
      some ([([F64.of 0], [F64.of 10]), ([F64.of 1], [F64.of 10]), ([F64.of 2], [F64.of 12])],
        [[F64.of 10, F64.of 1], [F64.of 11, F64.of 0], [F64.of 12, F64.of 1]]) := by decide +kernel

/-- A new optimizer whose initialiser evaluates nothing, with no statistic or criterion that looks: if `optimize` returns at all, it has not evaluated a
single point (the first iteration reads the first element of an empty vector: undefined behaviour). -/
theorem C59_without_initial_data_undefined (P : CBoParams α M C) (hN : NobodyLooks P) (hi : ∀ s d, P.initPts s d = some [])
    (it : Int) (nb0 d0 : Nat) (m : M) (c : C) (f : StateFun α M) (nb : Nat) (afun : List α → α) (reset : Bool) (fuel : Nat)
    (st' : CBoState α M C) (h : cbOptimize P f nb afun reset fuel (newCBo it nb0 d0 m c) = .ok st') : st'.base.samples = [] := by
  obtain ⟨b1, s2, hb1, hs2, hl⟩ := cbOptimize_ok h
  have hb : b1.samples = [] ∧ b1.observations = [] := by
    unfold cbInit at hb1
    simp only [newCBo, BoState.push, hi] at hb1
    cases reset <;> (simp [evalAll] at hb1; rw [← hb1]; exact ⟨rfl, rfl⟩)
  obtain ⟨e1, e2, -, -, hor⟩ := cbModelInit_ok hs2
  simp only at e1 e2 hor
  have ho : s2.obs = [] := by
    rcases hor with ⟨-, -, -, h⟩ | ⟨h, -⟩
    · rw [h]; rfl
    · exact absurd hb.2 h
  have key := cbLoop_ok_inv (P := P) (f := f) (afun := afun) (I := fun s => s.base.samples = [] ∧ s.obs = []) ?_ ?_ fuel s2 st'
    ⟨by rw [e1]; exact hb.1, ho⟩ hl
  · exact key.1
  · intro s b s' hI hc
    obtain ⟨hsame, -, hno⟩ := cbChain_same P afun _ _ _ _ _ _ hc
    exact ⟨by rw [hsame.samples]; exact hI.1, by rw [hno hN.1]; exact hI.2⟩
  · intro s s' hI hi
    exfalso
    obtain ⟨x, v, s1, s2, o, m1, m2, c1, c2, -, -, -, -, -, -, a6, hstats, ho, -⟩ := cbIteration_ok hi
    obtain ⟨-, hno, -⟩ := cbStats_same P afun _ _ _ hstats
    rw [hno hN.2, a6, hI.2] at ho
    simp at ho

example : (match cbOptimize { exCbP [] with initPts := fun _ _ => some [] } (exCbF []) 1 firstElem true 10 (newCBo 0 0 0 (0, []) (0, [])) with
    | .ub => true | _ => false) = true := by decide +kernel

/-! ## C60 best point -/

/-- `best_observation`: the objective part of the first best feasible observation; if none is feasible, of the first best observation. -/
theorem C60_best_observation [LawfulCmp α] (P : CBoParams α M C) (st : CBoState α M C) (afun : List α → α) (d : Nat) (hd : P.dimOutOf st.base.model = d)
    (hnb : 0 < st.nb) (hsz : ∀ v ∈ st.base.observations, v.length = d + st.nb) (hne : st.base.observations ≠ [])
    (hlen : st.base.samples.length = st.base.observations.length)
    (hnan : ∀ v ∈ st.base.observations, isNaN (afun (objectivePart d v)) = false) :
    ∃ (i : Nat) (v : List α), st.base.observations[i]? = some v ∧ cbBestObservation P afun st = some (objectivePart d v) ∧
      -- some observation is feasible
      ((∃ w ∈ st.base.observations, FeasibleObs d w) → FeasibleObs d v ∧
        (∀ (j : Nat) w, st.base.observations[j]? = some w → FeasibleObs d w → le (afun (objectivePart d w)) (afun (objectivePart d v)) = true) ∧
        (∀ (j : Nat) w, j < i → st.base.observations[j]? = some w → FeasibleObs d w → lt (afun (objectivePart d w)) (afun (objectivePart d v)) = true) ∧
        cbBestSample P afun st = st.base.samples[i - ((st.base.observations.take i).filter (fun w => !decide (FeasibleObs d w))).length]?) ∧
      -- none is
      ((∀ w ∈ st.base.observations, ¬ FeasibleObs d w) →
        (∀ (j : Nat) w, st.base.observations[j]? = some w → le (afun (objectivePart d w)) (afun (objectivePart d v)) = true) ∧
        (∀ (j : Nat) w, j < i → st.base.observations[j]? = some w → lt (afun (objectivePart d w)) (afun (objectivePart d v)) = true) ∧
        cbBestSample P afun st = st.base.samples[i]?) := by
  subst hd
  have hlook := cbLook_of (P := P) (st := st) hsz hnb
  generalize hdd : P.dimOutOf st.base.model = d at *
  have hbo : cbBestObservation P afun st = ((shown d st.base.observations).map (objectivePart d))[maxElement (((shown d st.base.observations).map (objectivePart d)).map afun)]? := by
    unfold cbBestObservation; rw [hlook]; rfl
  have hbs : cbBestSample P afun st = st.base.samples[maxElement (((shown d st.base.observations).map (objectivePart d)).map afun)]? := by
    unfold cbBestSample; rw [hlook]; rfl
  have hsne : shown d st.base.observations ≠ [] := by
    unfold shown; split
    · exact hne
    · assumption
  have hsub : ∀ v ∈ shown d st.base.observations, v ∈ st.base.observations := by
    intro v hv
    unfold shown at hv
    split at hv
    · exact hv
    · exact (List.mem_filter.1 hv).1
  rw [List.map_map] at hbo hbs
  obtain ⟨b, h1, h2, h3⟩ := maxElement_spec ((shown d st.base.observations).map (afun ∘ objectivePart d)) (by simpa using hsne)
    (by intro x hx; obtain ⟨v, hv, rfl⟩ := List.mem_map.1 hx; exact hnan v (hsub v hv))
  generalize hj : maxElement ((shown d st.base.observations).map (afun ∘ objectivePart d)) = j at *
  rw [List.getElem?_map, Option.map_eq_some_iff] at h1
  obtain ⟨v, hv, rfl⟩ := h1
  rw [List.getElem?_map, hv] at hbo
  by_cases hf : ∃ w ∈ st.base.observations, FeasibleObs d w
  · have hs : shown d st.base.observations = feas d st.base.observations := by
      unfold shown
      rw [if_neg]
      intro he
      obtain ⟨w, hw, hwf⟩ := hf
      rw [List.filter_eq_nil_iff] at he
      exact he w hw (by simpa using hwf)
    rw [hs] at hv h2 h3
    obtain ⟨i, hi1, hi2, hi3⟩ := filter_index _ _ _ _ hv
    refine ⟨i, v, hi1, hbo, fun _ => ⟨by simpa using hi2, ?_, ?_, ?_⟩, fun hno => ?_⟩
    · intro k w hw hwf
      have := filter_index_of (fun v => decide (FeasibleObs d v)) _ k w hw (by simpa using hwf)
      exact h2 _ _ (by rw [List.getElem?_map, this]; rfl)
    · intro k w hk hw hwf
      have := filter_index_of (fun v => decide (FeasibleObs d v)) _ k w hw (by simpa using hwf)
      refine h3 _ _ ?_ (by rw [List.getElem?_map, this]; rfl)
      rw [← hi3]
      exact filter_index_lt _ _ _ _ _ hk hw (by simpa using hwf)
    · rw [hbs]
      congr 1
      have hil : i < st.base.observations.length := by
        rcases Nat.lt_or_ge i st.base.observations.length with h | h
        · exact h
        · rw [List.getElem?_eq_none h] at hi1; simp at hi1
      have := List.length_eq_length_filter_add (l := st.base.observations.take i) (fun v => decide (FeasibleObs d v))
      rw [List.length_take, Nat.min_eq_left (by omega), hi3] at this
      omega
    · obtain ⟨w, hw, hwf⟩ := hf
      exact absurd hwf (hno w hw)
  · have hs : shown d st.base.observations = st.base.observations := by
      unfold shown
      rw [if_pos]
      rw [List.filter_eq_nil_iff]
      intro w hw hwf
      exact hf ⟨w, hw, by simpa using hwf⟩
    rw [hs] at hv h2 h3
    refine ⟨j, v, hv, hbo, fun h => absurd h hf, fun _ => ⟨?_, ?_, hbs⟩⟩
    · intro k w hw
      exact h2 _ _ (by rw [List.getElem?_map, hw]; rfl)
    · intro k w hk hw
      exact h3 _ _ hk (by rw [List.getElem?_map, hw]; rfl)

/-- `best_sample` is the sample of `best_observation` if no infeasible observation precedes the best feasible one. -/
theorem C60_best_sample_partial [LawfulCmp α] (P : CBoParams α M C) (st : CBoState α M C) (afun : List α → α) (d : Nat) (hd : P.dimOutOf st.base.model = d)
    (hnb : 0 < st.nb) (hsz : ∀ v ∈ st.base.observations, v.length = d + st.nb) (hne : st.base.observations ≠ [])
    (hlen : st.base.samples.length = st.base.observations.length)
    (hnan : ∀ v ∈ st.base.observations, isNaN (afun (objectivePart d v)) = false)
    (hpre : ∀ (i j : Nat) v w, i < j → st.base.observations[i]? = some v → st.base.observations[j]? = some w → FeasibleObs d w → FeasibleObs d v) :
    ∃ (i : Nat) (v x : List α), st.base.observations[i]? = some v ∧ st.base.samples[i]? = some x ∧
      cbBestObservation P afun st = some (objectivePart d v) ∧ cbBestSample P afun st = some x := by
  obtain ⟨i, v, h1, h2, h3, h4⟩ := C60_best_observation P st afun d hd hnb hsz hne hlen hnan
  have hil : i < st.base.observations.length := by
    rcases Nat.lt_or_ge i st.base.observations.length with h | h
    · exact h
    · rw [List.getElem?_eq_none h] at h1; simp at h1
  refine ⟨i, v, st.base.samples[i], h1, List.getElem?_eq_getElem (by omega), h2, ?_⟩
  by_cases hf : ∃ w ∈ st.base.observations, FeasibleObs d w
  · obtain ⟨hv, -, -, hs⟩ := h3 hf
    rw [hs]
    have : (st.base.observations.take i).filter (fun w => !decide (FeasibleObs d w)) = [] := by
      rw [List.filter_eq_nil_iff]
      intro w hw
      obtain ⟨k, hk⟩ := List.getElem?_of_mem hw
      have hki : k < i := by
        rcases Nat.lt_or_ge k i with h | h
        · exact h
        · rw [List.getElem?_eq_none (by simp; omega)] at hk; simp at hk
      rw [List.getElem?_take_of_lt hki] at hk
      simpa using hpre k i w v hki hk h1 hv
    rw [this]
    exact List.getElem?_eq_getElem (by omega)
  · rw [(h4 (fun w hw hwf => hf ⟨w, hw, hwf⟩)).2.2]
    exact List.getElem?_eq_getElem (by omega)

/-- State with samples 0, 1, 2, observations (5, infeasible), (3, feasible), (4, feasible). -/
def exBest : CBoState F64 CbStore CbStore :=
  { base := { samples := [[F64.of 0], [F64.of 1], [F64.of 2]], observations := [[F64.of 5, F64.of 0], [F64.of 3, F64.of 1], [F64.of 4, F64.of 1]],
              currentIteration := 0, totalIterations := 0, model := (1, []), logs := [], trace := [] },
    cmodel := (1, []), nb := 1, dimOut := 1, obs := [] }

/-- The property is false: the best feasible observation is 4, made at sample 2; `best_sample` returns sample 1. -/
theorem C60_false : cbBestObservation (exCbP []) firstElem exBest = some [F64.of 4] ∧ cbBestSample (exCbP []) firstElem exBest = some [F64.of 1] := by
  decide +kernel

/-- The same on a run of the optimizer: observations (10, infeasible), (11, feasible), (12, feasible) at samples 0, 1, 2. -/
theorem C60_false_reachable :
    (cbRunOps (exCbP []) [.optimize (exCbF [0]) 1 firstElem true 10] (newCBo 0 0 0 (0, []) (0, []))).map (fun st =>
      (st.base.samples, cbBestObservation (exCbP []) firstElem st, cbBestSample (exCbP []) firstElem st)) =
    some ([[F64.of 0], [F64.of 1], [F64.of 2]], some [F64.of 12], some [F64.of 1]) := by decide +kernel

/-- It may even return the sample of an infeasible observation: observations (5, infeasible), (3, feasible). -/
theorem C60_false_infeasible_sample :
    cbBestObservation (exCbP []) firstElem { exBest with base := { exBest.base with samples := [[F64.of 0], [F64.of 1]], observations := [[F64.of 5, F64.of 0], [F64.of 3, F64.of 1]] } }
      = some [F64.of 3] ∧
    cbBestSample (exCbP []) firstElem { exBest with base := { exBest.base with samples := [[F64.of 0], [F64.of 1]], observations := [[F64.of 5, F64.of 0], [F64.of 3, F64.of 1]] } }
      = some [F64.of 0] := by decide +kernel

example : (∀ v ∈ exBest.base.observations, v.length = 1 + exBest.nb) ∧ (∀ v ∈ exBest.base.observations, isNaN (firstElem (objectivePart 1 v)) = false) := by
  decide +kernel

/-- Without constraints both functions read past the end of an empty vector as soon as there is an observation. -/
theorem C60_no_constraints_undefined (P : CBoParams α M C) (st : CBoState α M C) (afun : List α → α) (hnb : st.nb = 0)
    (hne : st.base.observations ≠ []) : cbBestObservation P afun st = none ∧ cbBestSample P afun st = none := by
  have : cbLook P st = none := by
    cases h : cbLook P st with
    | none => rfl
    | some s =>
      rcases (cbLook_eq h).2.1 with h | h
      · omega
      · exact absurd h hne
  simp [cbBestObservation, cbBestSample, this]

example : exBest.base.observations ≠ [] := by simp [exBest]

end

end Limbo
