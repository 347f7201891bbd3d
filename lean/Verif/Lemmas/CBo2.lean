import Verif.Lemmas.CBo
import Verif.Lemmas.Bo3

/-! Invariants of the constrained optimizer. -/

namespace Limbo

set_option linter.unusedSectionVars false

variable {α M C : Type} [Scalar α]

/-! ## The stored data -/

/-- a `BoParams` with the same initialiser -/
def CBoParams.toBo (P : CBoParams α M C) : BoParams α M where
  bounded := P.bounded
  statsEnabled := false
  hpPeriod := P.hpPeriod
  ops := P.ops
  initPts := P.initPts
  acqui := fun _ _ _ _ _ => (lit 0, none)
  acquiOpt := fun _ _ x _ => .point x
  startPt := fun _ _ => []
  stop := []
  stats := []

theorem cbInit_eq (P : CBoParams α M C) (f : StateFun α M) (reset : Bool) (st : BoState α M) :
    cbInit P f reset st = boInit P.toBo f reset st := rfl

theorem evalAll_currentIteration {f : StateFun α M} : ∀ {pts : List (List α)} {st st' : BoState α M}, evalAll f pts st = .ok st' →
    st'.currentIteration = st.currentIteration := by
  intro pts
  induction pts with
  | nil => intro st st' h; simp only [evalAll, Res.ok.injEq] at h; rw [h]
  | cons x xs ih =>
    intro st st' h
    simp only [evalAll] at h
    obtain ⟨s1, h1, h2⟩ := Res.andThen_ok h
    obtain ⟨v, -, -, rfl⟩ := evalAndAdd_ok h1
    rw [ih h2]

theorem cbInit_currentIteration {P : CBoParams α M C} {f : StateFun α M} {reset : Bool} {st st' : BoState α M}
    (h : cbInit P f reset st = .ok st') : st'.currentIteration = 0 := by
  unfold cbInit at h
  cases reset <;> simp only [Bool.false_eq_true, if_false, if_true] at h
  · split at h
    · split at h
      · rw [evalAll_currentIteration h]
      · simp at h
    · simp only [Res.ok.injEq] at h; rw [← h]
  · split at h
    · rw [evalAll_currentIteration h]
    · simp at h

abbrev CbData (st : CBoState α M C) : Prop := DataInv st.base

theorem cbBase_all {st : CBoState α M C} {r : Res (BoState α M)} {Q T : BoState α M → Prop} {Q' T' : CBoState α M C → Prop}
    (h : r.All Q T) (hq : ∀ b, Q b → Q' { st with base := b }) (ht : ∀ b, T b → T' { st with base := b }) : (cbBase st r).All Q' T' := by
  cases r with
  | ok m => exact hq m h
  | throw e m => exact ht m h
  | ub => trivial
  | diverge => trivial

theorem cbCmodel_all {st : CBoState α M C} {r : Res C} {Q T : CBoState α M C → Prop}
    (hq : ∀ c, Q { st with cmodel := c }) (ht : ∀ c, T { st with cmodel := c }) : (cbCmodel st r).All Q T := by
  cases r with
  | ok m => exact hq m
  | throw e m => exact ht m
  | ub => trivial
  | diverge => trivial

theorem cbWithModel_data {st : CBoState α M C} {r : Res M} (h : CbData st) : (cbBase st (withModel st.base r)).All CbData CbData :=
  cbBase_all (Q := DataInv) (T := DataInv) (withModel_all _ _ _ _ (fun _ _ => h.of_eq rfl rfl rfl) (fun _ => h.of_eq rfl rfl rfl))
    (fun _ h => h) (fun _ h => h)

theorem cbModelInit_data (P : CBoParams α M C) (f : StateFun α M) (st : CBoState α M C) (h : CbData st) :
    (cbModelInit P f st).All CbData CbData := by
  unfold cbModelInit
  split
  · simp only
    split
    · exact h.of_eq rfl rfl rfl
    · exact h.of_eq rfl rfl rfl
  · split
    · next o c _ =>
      refine (cbWithModel_data (st := { st with obs := [o, c] }) h).andThen fun s hs => ?_
      split
      · exact cbCmodel_all (fun _ => hs) (fun _ => hs)
      · exact hs
    · trivial

theorem cbUpdateStats_data (P : CBoParams α M C) (afun : List α → α) (st : CBoState α M C) (h : CbData st) :
    (cbUpdateStats P afun st).All CbData CbData := by
  unfold cbUpdateStats
  split
  · trivial
  · next s hs =>
    obtain ⟨⟨-, hb⟩, -, -⟩ := cbStats_same P afun _ _ _ hs
    show DataInv s.base
    rw [hb]; exact h.push _ (by simp [Event.neutral])

theorem cbModelAdd_data (P : CBoParams α M C) (st : CBoState α M C) (h : CbData st) : (cbModelAdd P st).All CbData CbData := by
  unfold cbModelAdd
  split
  · refine (cbWithModel_data h).andThen fun s hs => ?_
    split
    · split
      · exact cbCmodel_all (fun _ => hs) (fun _ => hs)
      · trivial
    · exact hs
  · trivial

theorem cbHp_data (P : CBoParams α M C) (st : CBoState α M C) (h : CbData st) : (cbHp P st).All CbData CbData := by
  unfold cbHp
  split
  · have h' := h.push (.hp st.base.model) (by simp [Event.neutral])
    refine (cbWithModel_data (st := { st with base := st.base.push (.hp st.base.model) }) h').andThen fun s hs => ?_
    split
    · exact cbCmodel_all (fun _ => hs) (fun _ => hs)
    · exact hs
  · exact h

theorem cbIteration_data (P : CBoParams α M C) (f : StateFun α M) (afun : List α → α) (st : CBoState α M C) (h : CbData st) :
    (cbIteration P f afun st).All CbData CbData := by
  have h0 : DataInv (st.base.push (.acqui st.base.model st.base.currentIteration)) := h.push _ (by simp [Event.neutral])
  unfold cbIteration
  simp only
  split
  · trivial
  · exact h0
  · next x hx =>
    refine Res.All.andThen (Q := CbData) (cbBase_all (evalAndAdd_inv f x _ h0) (fun _ h => h) (fun _ h => h)) fun s1 h1 => ?_
    refine (cbUpdateStats_data P afun s1 h1).andThen fun s2 h2 => ?_
    refine (cbModelAdd_data P s2 h2).andThen fun s3 h3 => ?_
    refine (cbHp_data P s3 h3).andThen fun s4 h4 => ?_
    exact h4.of_eq rfl rfl rfl

theorem cbChain_data {P : CBoParams α M C} {afun : List α → α} {cs : List (CCriterion α M C)} {k : Nat} {b0 b : Bool}
    {st st' : CBoState α M C} (h : cbChain P afun cs k b0 st = some (b, st')) (hd : CbData st) : CbData st' := by
  obtain ⟨-, ⟨as, he, has⟩, -⟩ := cbChain_same P afun cs k b0 b st st' h
  show DataInv st'.base
  rw [he]
  refine ⟨hd.len, ?_, hd.fin⟩
  simp only [expect]
  rw [expectFrom_append, expectFrom_asked _ _ has]
  exact hd.zip

theorem cbLoop_data (P : CBoParams α M C) (f : StateFun α M) (afun : List α → α) : ∀ (fuel : Nat) (st : CBoState α M C), CbData st →
    (cbLoop P f afun fuel st).All CbData CbData := by
  intro fuel
  induction fuel with
  | zero => intro st h; trivial
  | succ n ih =>
    intro st h
    simp only [cbLoop]
    split
    · trivial
    · next s hs => exact cbChain_data hs h
    · next s hs => exact (cbIteration_data P f afun s (cbChain_data hs h)).andThen ih

theorem cbOptimize_data (P : CBoParams α M C) (f : StateFun α M) (nb : Nat) (afun : List α → α) (reset : Bool) (fuel : Nat)
    (st : CBoState α M C) (h : CbData st) : (cbOptimize P f nb afun reset fuel st).All CbData CbData := by
  unfold cbOptimize
  simp only
  refine Res.All.andThen (Q := CbData) (cbBase_all (boInit_inv P.toBo f reset st.base h) (fun _ h => h) (fun _ h => h)) fun s1 h1 => ?_
  exact (cbModelInit_data P f s1 h1).andThen fun s2 h2 => cbLoop_data P f afun fuel s2 h2

theorem cbRunOp_data (P : CBoParams α M C) (op : CbOp α M C) (st : CBoState α M C) (h : CbData st) : (cbRunOp P op st).All CbData CbData := by
  cases op with
  | optimize f nb afun reset fuel => exact cbOptimize_data P f nb afun reset fuel st h
  | addNewSample s v =>
    refine cbBase_all (runOp_inv P.toBo (.addNewSample s v) st.base h) (fun _ h => h) (fun _ h => h)
  | evalAndAdd f x => exact cbBase_all (evalAndAdd_inv f x _ h) (fun _ h => h) (fun _ h => h)
  | best =>
    simp only [cbRunOp]
    split
    · trivial
    · next s hs =>
      show DataInv s.base
      rw [(cbLook_same hs).2]; exact h

theorem cbRunOps_data (P : CBoParams α M C) : ∀ (ops : List (CbOp α M C)) (st st' : CBoState α M C), CbData st →
    cbRunOps P ops st = some st' → CbData st' := by
  intro ops
  induction ops with
  | nil => intro st st' h he; simp only [cbRunOps, Option.some.injEq] at he; rw [← he]; exact h
  | cons op ops ih =>
    intro st st' h he
    have ho := cbRunOp_data P op st h
    simp only [cbRunOps] at he
    cases hr : cbRunOp P op st with
    | ok s => rw [hr] at he ho; exact ih _ _ ho he
    | throw e s => rw [hr] at he ho; exact ih _ _ ho he
    | ub => rw [hr] at he; simp at he
    | diverge => rw [hr] at he; simp at he

theorem newCBo_data (it : Int) (nb d : Nat) (m : M) (c : C) : CbData (newCBo it nb d m c : CBoState α M C) :=
  ⟨rfl, rfl, by simp [newCBo]⟩

/-! ## Generic loop invariant -/

theorem cbLoop_ok_inv {P : CBoParams α M C} {f : StateFun α M} {afun : List α → α} {I : CBoState α M C → Prop}
    (hc : ∀ st b st', I st → cbChain P afun P.stop 0 false st = some (b, st') → I st')
    (hi : ∀ st st', I st → cbIteration P f afun st = .ok st' → I st') :
    ∀ (fuel : Nat) (st st' : CBoState α M C), I st → cbLoop P f afun fuel st = .ok st' → I st' := by
  intro fuel
  induction fuel with
  | zero => intro st st' _ h; simp [cbLoop] at h
  | succ n ih =>
    intro st st' h he
    simp only [cbLoop] at he
    split at he
    · simp at he
    · next s hs => simp only [Res.ok.injEq] at he; rw [← he]; exact hc _ _ _ h hs
    · next s hs =>
      obtain ⟨s1, h1, h2⟩ := Res.andThen_ok he
      exact ih _ _ (hi _ _ (hc _ _ _ h hs) h1) h2

theorem cbModelInit_ok {P : CBoParams α M C} {f : StateFun α M} {st st' : CBoState α M C} (h : cbModelInit P f st = .ok st') :
    st'.base.samples = st.base.samples ∧ st'.base.observations = st.base.observations ∧ st'.nb = st.nb ∧
    st'.base.currentIteration = st.base.currentIteration ∧
    ((st.base.observations = [] ∧ st'.base.model = P.ops.fresh f.dimIn f.dimOut ∧ (0 < st.nb → st'.cmodel = P.cops.fresh f.dimIn st.nb) ∧ st'.obs = st.obs) ∨
     (st.base.observations ≠ [] ∧ (∀ v ∈ st.base.observations, v.length = st.dimOut + st.nb) ∧
      st'.obs = [st.base.observations.map (objectivePart st.dimOut), if 0 < st.nb then st.base.observations.map (constraintPart st.dimOut) else []] ∧
      P.ops.compute st.base.samples (st.base.observations.map (objectivePart st.dimOut)) st.base.model = .ok st'.base.model ∧
      (0 < st.nb → P.cops.compute st.base.samples (st.base.observations.map (constraintPart st.dimOut)) st.cmodel = .ok st'.cmodel))) := by
  unfold cbModelInit at h
  by_cases he : st.base.observations.isEmpty = true
  · rw [if_pos he] at h
    simp only at h
    rw [List.isEmpty_iff] at he
    by_cases hnb : 0 < st.nb
    · rw [if_pos hnb] at h
      simp only [Res.ok.injEq] at h
      subst h
      exact ⟨rfl, rfl, rfl, rfl, Or.inl ⟨he, rfl, fun _ => rfl, rfl⟩⟩
    · rw [if_neg hnb] at h
      simp only [Res.ok.injEq] at h
      subst h
      exact ⟨rfl, rfl, rfl, rfl, Or.inl ⟨he, rfl, fun h => absurd h hnb, rfl⟩⟩
  · rw [if_neg he] at h
    rw [List.isEmpty_iff] at he
    split at h
    · next o c hs =>
      obtain ⟨hlen, hoc⟩ := cbSplit_eq hs
      simp only [List.cons.injEq, and_true] at hoc
      obtain ⟨rfl, rfl⟩ := hoc
      obtain ⟨s1, h1, h2⟩ := Res.andThen_ok h
      obtain ⟨b, hb, rfl⟩ := cbBase_ok h1
      obtain ⟨m, hm, rfl⟩ := withModel_ok hb
      simp only at h2 hm
      by_cases hnb : 0 < st.nb
      · rw [if_pos hnb] at h2
        obtain ⟨cm, hcm, rfl⟩ := cbCmodel_ok h2
        refine ⟨rfl, rfl, rfl, rfl, Or.inr ⟨he, hlen, rfl, hm, fun _ => ?_⟩⟩
        rw [if_pos hnb] at hcm; exact hcm
      · rw [if_neg hnb] at h2
        simp only [Res.ok.injEq] at h2
        subst h2
        exact ⟨rfl, rfl, rfl, rfl, Or.inr ⟨he, hlen, rfl, hm, fun h => absurd h hnb⟩⟩
    · simp at h

theorem cbOptimize_ok {P : CBoParams α M C} {f : StateFun α M} {nb : Nat} {afun : List α → α} {reset : Bool} {fuel : Nat}
    {st st' : CBoState α M C} (h : cbOptimize P f nb afun reset fuel st = .ok st') :
    ∃ b1 s2, cbInit P f reset (st.base.push (.start reset)) = .ok b1 ∧
      cbModelInit P f { st with nb := nb, dimOut := f.dimOut, base := b1 } = .ok s2 ∧ cbLoop P f afun fuel s2 = .ok st' := by
  unfold cbOptimize at h
  simp only at h
  obtain ⟨s1, h1, h2⟩ := Res.andThen_ok h
  obtain ⟨b1, hb, rfl⟩ := cbBase_ok h1
  obtain ⟨s2, h3, h4⟩ := Res.andThen_ok h2
  exact ⟨b1, s2, hb, h3, h4⟩

/-! ## What the models have been fed -/

/-- pair `k` of `D` is sample `k` together with the value `G obs k` -/
structure Fed (G : List (List α) → Nat → Option (List α)) (S O : List (List α)) (D : List (List α × List α)) : Prop where
  lenD : D.length = S.length
  lenO : S.length = O.length
  get : ∀ (k : Nat) x, S[k]? = some x → ∃ y, G O k = some y ∧ D[k]? = some (x, y)

theorem Fed.step {G : List (List α) → Nat → Option (List α)} {S O : List (List α)} {D : List (List α × List α)} (h : Fed G S O D)
    {x v y : List α} (hst : ∀ k, k < O.length → G (O ++ [v]) k = G O k) (hy : G (O ++ [v]) O.length = some y) :
    Fed G (S ++ [x]) (O ++ [v]) (D ++ [(x, y)]) := by
  refine ⟨by simp [h.lenD], by simp [h.lenO], ?_⟩
  intro k z hz
  rcases Nat.lt_trichotomy k S.length with hk | hk | hk
  · rw [List.getElem?_append_left hk] at hz
    obtain ⟨y', h1, h2⟩ := h.get k z hz
    refine ⟨y', ?_, ?_⟩
    · rw [hst k (by rw [← h.lenO]; exact hk)]; exact h1
    · rw [List.getElem?_append_left (by rw [h.lenD]; exact hk)]; exact h2
  · subst hk
    simp at hz
    subst hz
    refine ⟨y, by rw [h.lenO]; exact hy, ?_⟩
    rw [List.getElem?_append_right (by rw [h.lenD])]
    simp [h.lenD]
  · rw [List.getElem?_eq_none (by simp; omega)] at hz
    simp at hz

/-- the value at which a model that is never refreshed sticks -/
def gStale (g : List α → List α) (n : Nat) (O : List (List α)) (k : Nat) : Option (List α) := (O[min k (n - 1)]?).map g

/-- the value of the latest feasible observation -/
def gFeas (d n : Nat) (O : List (List α)) (k : Nat) : Option (List α) :=
  if k < n then (O[k]?).map (objectivePart d) else (latestFeasible d (O.take (k + 1))).map (objectivePart d)

/-- the right constraint value -/
def gTrue (g : List α → List α) (O : List (List α)) (k : Nat) : Option (List α) := (O[k]?).map g

theorem fed_zip {G : List (List α) → Nat → Option (List α)} {S O : List (List α)} (g : List α → List α) (hl : S.length = O.length)
    (hG : ∀ (k : Nat) v, O[k]? = some v → G O k = some (g v)) : Fed G S O (S.zip (O.map g)) := by
  refine ⟨by simp [hl], hl, ?_⟩
  intro k x hx
  have hk : k < O.length := by
    rw [← hl]
    rcases Nat.lt_or_ge k S.length with h | h
    · exact h
    · rw [List.getElem?_eq_none h] at hx; simp at hx
  refine ⟨g O[k], hG k _ (List.getElem?_eq_getElem hk), ?_⟩
  rw [List.getElem?_zip_eq_some]
  exact ⟨hx, by simp [hk]⟩

theorem gStale_stable (g : List α → List α) (n : Nat) (O : List (List α)) (v : List α) (k : Nat) (hk : k < O.length) :
    gStale g n (O ++ [v]) k = gStale g n O k := by
  unfold gStale
  rw [List.getElem?_append_left (by omega)]

theorem gTrue_stable (g : List α → List α) (O : List (List α)) (v : List α) (k : Nat) (hk : k < O.length) :
    gTrue g (O ++ [v]) k = gTrue g O k := by
  unfold gTrue
  rw [List.getElem?_append_left hk]

theorem gFeas_stable (d n : Nat) (O : List (List α)) (v : List α) (k : Nat) (hk : k < O.length) :
    gFeas d n (O ++ [v]) k = gFeas d n O k := by
  unfold gFeas
  rw [List.getElem?_append_left hk, List.take_append_of_le_length (by omega)]

/-! ## Positions in a filtered list -/

theorem filter_index {β : Type} (p : β → Bool) : ∀ (l : List β) (j : Nat) (v : β), (l.filter p)[j]? = some v →
    ∃ i : Nat, l[i]? = some v ∧ p v = true ∧ ((l.take i).filter p).length = j := by
  intro l
  induction l with
  | nil => intro j v h; simp at h
  | cons a as ih =>
    intro j v h
    by_cases ha : p a = true
    · rw [List.filter_cons_of_pos ha] at h
      cases j with
      | zero => simp at h; subst h; exact ⟨0, by simp, ha, by simp⟩
      | succ j =>
        simp at h
        obtain ⟨i, h1, h2, h3⟩ := ih j v h
        exact ⟨i + 1, by simpa using h1, h2, by simp [ha, h3]⟩
    · rw [List.filter_cons_of_neg ha] at h
      obtain ⟨i, h1, h2, h3⟩ := ih j v h
      exact ⟨i + 1, by simpa using h1, h2, by simp [ha, h3]⟩

theorem filter_index_of {β : Type} (p : β → Bool) : ∀ (l : List β) (i : Nat) (v : β), l[i]? = some v → p v = true →
    (l.filter p)[((l.take i).filter p).length]? = some v := by
  intro l
  induction l with
  | nil => intro i v h; simp at h
  | cons a as ih =>
    intro i v h hv
    cases i with
    | zero => simp at h; subst h; simp [hv]
    | succ i =>
      simp at h
      have := ih i v h hv
      by_cases ha : p a = true
      · simp [ha, this]
      · simp [ha, this]

theorem filter_index_lt {β : Type} (p : β → Bool) (l : List β) (i j : Nat) (v : β) (hij : i < j) (h : l[i]? = some v) (hv : p v = true) :
    ((l.take i).filter p).length < ((l.take j).filter p).length := by
  have h1 : (l.take j)[i]? = some v := by rw [List.getElem?_take_of_lt hij]; exact h
  have h2 := filter_index_of p (l.take j) i v h1 hv
  rw [List.take_take, Nat.min_eq_left (Nat.le_of_lt hij)] at h2
  rcases Nat.lt_or_ge ((l.take i).filter p).length ((l.take j).filter p).length with h | h
  · exact h
  · rw [List.getElem?_eq_none h] at h2; simp at h2

end Limbo
