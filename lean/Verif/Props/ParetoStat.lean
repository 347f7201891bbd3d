import Verif.Model.ParetoStat
import Verif.Spec.ParetoStat
import Verif.Lemmas.MuStat
import Verif.Lemmas.BoHonest
import Verif.Props.StatGp
import Verif.Props.Multi
import Verif.Props.Pareto

/-! # C106: the files with the Pareto front -/

namespace Limbo

set_option linter.unusedSectionVars false

variable {α M : Type} [Scalar α] [LawfulCmp α]

/-- `pareto_set` returns one of the results it may return. -/
def PsetFrontOk (pset : BoState α M → List (List α × List α) → List (List α × List α)) : Prop :=
  ∀ st v d, 1 < d → v ≠ [] → (∀ p ∈ v, GoodObjs d p.2) → ParetoSet (fun p : List α × List α => p.2) v (pset st v)

variable {pset : BoState α M → List (List α × List α) → List (List α × List α)}

theorem frontRows_of (hp : PsetFrontOk pset) {d : Nat} (hd : 1 < d) (st : BoState α M) {v : List (List α × List α)} (hne : v ≠ [])
    (hg : ∀ p ∈ v, GoodObjs d p.2) : FrontRows v ((pset st v).map fun p => p.1 ++ p.2) := by
  obtain ⟨h1, -, h3, -⟩ := C57_pareto_set d _ v hg _ (hp st v d hd hne hg)
  exact ⟨_, rfl, h1, h3⟩

/-- In any state with data (all observations with the same number of at least two entries, none NaN), the statistic writes exactly the
Pareto front of all the data, whatever the schedule of the parallel loops. -/
theorem statParetoFront_spec (hp : PsetFrontOk pset) {d : Nat} (hd : 1 < d) {st : BoState α M} (afun : List α → α)
    (hl : st.samples.length = st.observations.length) (hne : st.observations ≠ []) (hg : ∀ v ∈ st.observations, GoodObjs d v) :
    ∃ rows, FrontRows (st.samples.zip st.observations) rows ∧
      statParetoFront pset st afun = some (rows.map (.row st.currentIteration)) := by
  obtain ⟨o, os, ho⟩ := List.exists_cons_of_ne_nil hne
  obtain ⟨s, ss, hs⟩ : ∃ s ss, st.samples = s :: ss := List.exists_cons_of_ne_nil fun e => by rw [e, ho] at hl; simp at hl
  refine ⟨_, frontRows_of hp hd st (v := st.samples.zip st.observations) (by rw [hs, ho]; simp)
    (fun p hp => hg _ (List.of_mem_zip hp).2), ?_⟩
  have : o.length = d := (hg o (by rw [ho]; simp)).1
  rw [ho] at hl
  simp only [statParetoFront, ho, if_pos hl, if_pos (show 1 < o.length by omega), List.map_map]
  rfl

variable {P : BoParams α M}

theorem finite_good {d : Nat} {v : List α} (hl : v.length = d) (hf : AllFinite v) : GoodObjs d v := ⟨hl, fun x hx => (hf x hx).1⟩

/-- **C106**, `stat::ParetoFront` with `BOptimizer`: after any history of calls, one file was written for each completed evaluation of the
optimization loop, in this order, its number being that of the iteration in its run, with exactly the Pareto front of all the data stored at
that moment, the newest included.  (All observations have the same number `d >= 2` of entries.) -/
theorem C106_pareto_front_files (hN : NoThrow P.ops) (hen : P.statsEnabled = true) (k : Nat) (hp : PsetFrontOk pset)
    (hs : P.stats[k]? = some (statParetoFront pset)) (c : Int) (m : M) (ops : List (BoOp α M)) (afun : List α → α)
    (hops : ∀ f a r n, BoOp.optimize f a r n ∈ ops → a = afun) (st : BoState α M) (h : runOps P ops (newBo P c m) = some st)
    (d : Nat) (hd : 1 < d) (hO : ∀ x y, Event.call x (.ret y) ∈ st.trace ∨ Event.given x y ∈ st.trace → y.length = d) :
    ∃ writes : List (Int × List (List α)), st.logs[k]? = some (writes.flatMap fun w => w.2.map (.row w.1)) ∧
      List.Forall₂ (fun p w => ∃ tr x y, p.1 = tr ++ [.acqui p.2 w.1, .call x (.ret y)] ∧ expect p.1 = expect tr ++ [(x, y)] ∧
        FrontRows (expect p.1) w.2) (statPoints st.trace) writes := by
  have hI := runOps_stat hen hs hN ops hops _ st (newBo_stat (afun := afun) c m hs) h
  obtain ⟨blks, h1, h2⟩ := hI.log
  have hmem : ∀ p ∈ statPoints st.trace, ∃ post, st.trace = p.1 ++ .stat p.2 :: post := statPoints_prefix _
  rw [h1]
  clear h1
  generalize statPoints st.trace = ps at h2 hmem
  induction h2 with
  | nil => exact ⟨[], rfl, .nil⟩
  | @cons p blk ps blks hq _ ih =>
    obtain ⟨ws, hw1, hw2⟩ := ih fun p hp => hmem p (by simp [hp])
    obtain ⟨q, ⟨hinv, htr, hmod, ⟨tr0, x, y, hpre, hfin, hx, hy⟩, htot⟩, hblk⟩ := hq
    obtain ⟨post, hpost⟩ := hmem p (by simp)
    have hz : q.samples.zip q.observations = expect p.1 := by
      rw [hinv.zip, htr]; unfold expect expectFrom; rw [List.foldl_append]; rfl
    have hfin' : y.all (fun y => isFinite y) = true := (all_finite_iff y).2 hfin
    have hexp : expect p.1 = expect tr0 ++ [(x, y)] := by
      rw [hpre]; unfold expect expectFrom; rw [List.foldl_append]
      simp [expectStep, hfin']
    have hne : q.observations ≠ [] := by rintro e; rw [e] at hy; cases hy
    have hgood : ∀ v ∈ q.observations, GoodObjs d v := by
      intro v hv
      refine finite_good ?_ (hinv.fin v hv)
      obtain ⟨j, hj, rfl⟩ := List.getElem_of_mem hv
      have hm : (q.samples[j]'(by rw [hinv.len]; exact hj), q.observations[j]) ∈ expect p.1 := by
        rw [← hz, List.mem_iff_getElem]
        exact ⟨j, by simp [hinv.len, hj], by simp⟩
      refine hO (q.samples[j]'(by rw [hinv.len]; exact hj)) _ ?_
      have := mem_expect hm
      rw [hpost]
      rcases this with t | t
      · exact .inl (by simp [t])
      · exact .inr (by simp [t])
    obtain ⟨rows, hr1, hr2⟩ := statParetoFront_spec hp hd afun hinv.len hne hgood
    rw [hr2] at hblk
    cases hblk
    refine ⟨(q.currentIteration, rows) :: ws, ?_, .cons ⟨tr0, x, y, hpre, hexp, hz ▸ hr1⟩ hw2⟩
    simp only [Option.some.injEq] at hw1
    simp [hw1]

theorem fileAfter_none {R : Type} {ws : List (Int × R)} {i : Int} : fileAfter ws i = none ↔ ∀ w ∈ ws, w.1 ≠ i := by
  simp [fileAfter]

theorem fileAfter_some {R : Type} {ws : List (Int × R)} {i : Int} {r : R} (h : fileAfter ws i = some r) :
    ∃ a b, ws = a ++ (i, r) :: b ∧ ∀ w ∈ b, w.1 ≠ i := by
  unfold fileAfter at h
  rw [Option.map_eq_some_iff] at h
  obtain ⟨⟨j, r'⟩, h1, rfl⟩ := h
  rw [List.find?_eq_some_iff_append] at h1
  obtain ⟨h0, as, bs, h2, h3⟩ := h1
  simp only [beq_iff_eq] at h0
  subst h0
  refine ⟨bs.reverse, as.reverse, ?_, ?_⟩
  · have := congrArg List.reverse h2
    simpa using this
  · intro w hw
    have := h3 w (by simpa using hw)
    simpa using this

theorem forall₂_split {β γ : Type} {R : γ → β → Prop} {w : β} {b : List β} : ∀ {a : List β} {l : List γ}, List.Forall₂ R l (a ++ w :: b) →
    ∃ pa p pb, l = pa ++ p :: pb ∧ R p w ∧ List.Forall₂ R pb b
  | [], _, .cons h1 h2 => ⟨[], _, _, rfl, h1, h2⟩
  | _ :: _, _, .cons _ h2 => by
    obtain ⟨pa, p, pb, rfl, h3, h4⟩ := forall₂_split h2
    exact ⟨_ :: pa, p, pb, rfl, h3, h4⟩

/-- **C106**: the files that are there in the end.  There is a file `i` exactly if some refresh of the statistics was in an iteration `i` of a run,
and it contains the Pareto front of the data stored at the *last* such refresh. -/
theorem C106_files_in_the_end (hN : NoThrow P.ops) (hen : P.statsEnabled = true) (k : Nat) (hp : PsetFrontOk pset)
    (hs : P.stats[k]? = some (statParetoFront pset)) (c : Int) (m : M) (ops : List (BoOp α M)) (afun : List α → α)
    (hops : ∀ f a r n, BoOp.optimize f a r n ∈ ops → a = afun) (st : BoState α M) (h : runOps P ops (newBo P c m) = some st)
    (d : Nat) (hd : 1 < d) (hO : ∀ x y, Event.call x (.ret y) ∈ st.trace ∨ Event.given x y ∈ st.trace → y.length = d) :
    ∃ writes : List (Int × List (List α)), st.logs[k]? = some (writes.flatMap fun w => w.2.map (.row w.1)) ∧ ∀ i,
      (fileAfter writes i = none ↔ ∀ p ∈ statPoints st.trace, ∀ tr x y, p.1 ≠ tr ++ [.acqui p.2 i, .call x (.ret y)]) ∧
      ∀ rows, fileAfter writes i = some rows → ∃ before p after, statPoints st.trace = before ++ p :: after ∧ FrontRows (expect p.1) rows ∧
        (∃ tr x y, p.1 = tr ++ [.acqui p.2 i, .call x (.ret y)]) ∧
        ∀ q ∈ after, ∀ tr x y, q.1 ≠ tr ++ [.acqui q.2 i, .call x (.ret y)] := by
  obtain ⟨ws, h1, h2⟩ := C106_pareto_front_files hN hen k hp hs c m ops afun hops st h d hd hO
  refine ⟨ws, h1, fun i => ⟨?_, ?_⟩⟩
  · rw [fileAfter_none]
    clear h1
    generalize statPoints st.trace = ps at h2
    induction h2 with
    | nil => simp
    | @cons p w ps ws hq _ ih =>
      rw [List.forall_mem_cons, List.forall_mem_cons, ih]
      obtain ⟨tr, x, y, e, -⟩ := hq
      refine and_congr_left fun _ => ⟨fun hne tr' x' y' e' => ?_, fun h hi => h tr x y (hi ▸ e)⟩
      rw [e] at e'
      have e'' := List.append_inj_right' e' rfl
      simp only [List.cons.injEq, Event.acqui.injEq] at e''
      exact hne e''.1.2
  · intro rows hr
    obtain ⟨a, b, rfl, hb⟩ := fileAfter_some hr
    obtain ⟨pa, p, pb, e, ⟨tr, x, y, e1, -, e3⟩, hrest⟩ := forall₂_split h2
    refine ⟨pa, p, pb, e, e3, ⟨tr, x, y, e1⟩, ?_⟩
    intro q hqm tr' x' y' e'
    clear e h2 hr h1
    induction hrest with
    | nil => cases hqm
    | @cons q0 w0 pb b hq0 _ ih =>
      rcases List.mem_cons.1 hqm with rfl | hm
      · obtain ⟨t2, x2, y2, e2, -⟩ := hq0
        rw [e2] at e'
        have e'' := List.append_inj_right' e' rfl
        simp only [List.cons.injEq, Event.acqui.injEq] at e''
        exact hb w0 (by simp) e''.1.2
      · exact ih (fun w hw => hb w (by simp [hw])) hm

/-- **C106**: with observations of one entry (or none) the statistic fails an assertion as soon as there is data. -/
theorem C106_needs_two_objectives (st : BoState α M) (afun : List α → α) (o : List α) (ho : st.observations.head? = some o)
    (hl : o.length ≤ 1) : statParetoFront pset st afun = none := by
  obtain ⟨os, hos⟩ : ∃ os, st.observations = o :: os := by
    cases h : st.observations with
    | nil => rw [h] at ho; cases ho
    | cons a l => rw [h] at ho; simp only [List.head?_cons, Option.some.injEq] at ho; exact ⟨l, by rw [ho]⟩
  simp only [statParetoFront, hos, if_neg (show ¬ 1 < o.length by omega), ite_self]

/-- **C106**, `stat::ParetoFront` with `Ehvi` or `Nsbo`: after any history of calls, one file was written for each completed evaluation of the
optimization loop, in this order, its number being the number of refreshes since the run began, with exactly the Pareto front of all the data
stored at that moment, the newest included.  (All observations have the same number `d >= 2` of entries.) -/
theorem C106_multi_pareto_front_files {P : MuParams α M}
    {pset : BoState α (MM α M) → List (List α × List α) → List (List α × List α)} (hen : P.bo.statsEnabled = true) (k : Nat) (hp : PsetFrontOk pset)
    (hs : P.bo.stats[k]? = some (statParetoFront pset)) (c : Int) (ops : List (MuOp α M)) (st : BoState α (MM α M))
    (h : muOps P ops (newMulti P c) = some st)
    (d : Nat) (hd : 1 < d) (hO : ∀ x y, Event.call x (.ret y) ∈ st.trace ∨ Event.given x y ∈ st.trace → y.length = d) :
    ∃ writes : List (Int × List (List α)), st.logs[k]? = some (writes.flatMap fun w => w.2.map (.row w.1)) ∧
      List.Forall₂ (fun p w => ∃ tr x y, p.1 = tr ++ [.call x (.ret y)] ∧ expect p.1 = expect tr ++ [(x, y)] ∧
        w.1 = (statsInRun p.1 : Int) ∧ FrontRows (expect p.1) w.2) (statPoints st.trace) writes := by
  have hI := muOps_inv (muOp_must hen hs) ops _ st (newMulti_must c hs) h
  obtain ⟨blks, h1, h2⟩ := hI.log
  have hmem : ∀ p ∈ statPoints st.trace, ∃ post, st.trace = p.1 ++ .stat p.2 :: post := statPoints_prefix _
  rw [h1]
  clear h1
  generalize statPoints st.trace = ps at h2 hmem
  induction h2 with
  | nil => exact ⟨[], rfl, .nil⟩
  | @cons p blk ps blks hq _ ih =>
    obtain ⟨ws, hw1, hw2⟩ := ih fun p hp => hmem p (by simp [hp])
    obtain ⟨q, afun, ⟨hinv, htr, hmod, ⟨tr0, x, y, hpre, hfin⟩, htot⟩, hblk⟩ := hq
    obtain ⟨post, hpost⟩ := hmem p (by simp)
    have hz : q.samples.zip q.observations = expect p.1 := by
      rw [hinv.zip, htr]; unfold expect expectFrom; rw [List.foldl_append]; rfl
    have hfin' : y.all (fun y => isFinite y) = true := (all_finite_iff y).2 hfin
    have hexp : expect p.1 = expect tr0 ++ [(x, y)] := by
      rw [hpre]; unfold expect expectFrom; rw [List.foldl_append]
      simp [expectStep, hfin']
    have hne : q.observations ≠ [] := by rintro e; rw [e, hexp] at hz; simp at hz
    have hgood : ∀ v ∈ q.observations, GoodObjs d v := by
      intro v hv
      refine finite_good ?_ (hinv.fin v hv)
      obtain ⟨j, hj, rfl⟩ := List.getElem_of_mem hv
      have hm : (q.samples[j]'(by rw [hinv.len]; exact hj), q.observations[j]) ∈ expect p.1 := by
        rw [← hz, List.mem_iff_getElem]
        exact ⟨j, by simp [hinv.len, hj], by simp⟩
      refine hO (q.samples[j]'(by rw [hinv.len]; exact hj)) _ ?_
      have := mem_expect hm
      rw [hpost]
      rcases this with t | t
      · exact .inl (by simp [t])
      · exact .inr (by simp [t])
    obtain ⟨rows, hr1, hr2⟩ := statParetoFront_spec hp hd afun hinv.len hne hgood
    rw [hr2] at hblk
    cases hblk
    refine ⟨(q.currentIteration, rows) :: ws, ?_, .cons ⟨tr0, x, y, hpre, hexp, htot, hz ▸ hr1⟩ hw2⟩
    simp only [Option.some.injEq] at hw1
    simp [hw1]

/-! ## `stat::ParetoBenchmark` -/

section bench
variable {P : MuParams α M}

theorem muOps_snoc (op : MuOp α M) (st' : BoState α (MM α M)) : ∀ (ops : List (MuOp α M)) (st0 st : BoState α (MM α M)),
    muOps P ops st0 = some st → muOp P op st = .ok st' → muOps P (ops ++ [op]) st0 = some st' := by
  intro ops
  induction ops with
  | nil =>
    intro st0 st h h'
    simp only [muOps, Option.some.injEq] at h
    subst h
    simp [muOps, h']
  | cons o os ih =>
    intro st0 st h h'
    simp only [muOps, List.cons_append] at h ⊢
    cases hr : muOp P o st0 with
    | ok q => rw [hr] at h; exact ih q st h h'
    | throw e q => rw [hr] at h; exact ih q st h h'
    | ub => rw [hr] at h; cases h
    | diverge => rw [hr] at h; cases h

/-- **C106**, `stat::ParetoBenchmark`: after any history of calls on `Ehvi` or `Nsbo`, the statistic leaves the data alone, and of its four files
`obs` lists all the data; `pareto_data` lists the observations of the Pareto front of all the data; `pareto_model` lists the objectives found by the
evolutionary algorithm, each with the standard deviations there of the models *fitted to all the data* (the newest point included), and
`pareto_model_real` the true values at the same points in the same order. -/
theorem C106_benchmark_files (data : M → List (List α × List α)) (hL : LawfulModel P.ops data) (hp : PsetOk P) (c : Int) (ops : List (MuOp α M))
    (st st' : BoState α (MM α M)) (dim d : Nat) (hd : 1 < d) (h : muOps P ops (newMulti P c) = some st)
    (hO : ∀ v ∈ st.observations, v.length = d) (h' : paretoBenchmark P false dim st = .ok st') (f : List α → List α) :
    st'.samples = st.samples ∧ st'.observations = st.observations ∧
    ∃ files models front found, benchFiles f st' = some files ∧ FittedTo data d st.samples st.observations models ∧
      ParetoOf d st.samples st.observations front ∧
      files.obs = (expect st.trace).map (fun p => p.2 ++ p.1) ∧ files.data = front.map (fun p => p.2.1) ∧
      files.model = found.map (fun p => p.2.1 ++ p.2.2) ∧ files.modelReal = found.map (fun p => f p.1) ∧
      (∀ ea, P.sferes = some ea → ∃ q, found = (ea q dim).map fun p => (p.1, p.2, models.map fun m => P.sigma m p.1)) ∧
      (P.sferes = none → found = st.model.paretoModel) := by
  have hI := muOps_inv (muOp_data P) ops _ st (newBo_inv P.bo c _) h
  unfold paretoBenchmark at h'
  cases h1 : updateParetoData P st with
  | ub => rw [h1] at h'; cases h'
  | diverge => rw [h1] at h'; cases h'
  | throw e s => rw [h1] at h'; cases h'
  | ok s1 =>
    rw [h1] at h'
    have h2 : updateParetoModel P dim s1 = .ok st' := h'
    obtain ⟨a1, a2, a3, -, -⟩ := C72_pareto_data P hp c ops st s1 d hd h hO h1
    have hr := muOps_snoc (.updateParetoData) s1 ops _ st h h1
    obtain ⟨b1, b2, b3, b4⟩ := C73_models P data hL c _ s1 st' dim d hr (by rw [a3]; exact hO) h2
    have e0 : st'.samples = st.samples := b2.trans a2
    have e1 : st'.observations = st.observations := b3.trans a3
    rw [a2, a3] at b1
    have hpm : s1.model.paretoModel = st.model.paretoModel := by
      obtain ⟨o0, r, -, -, -, k4⟩ := updateParetoData_ok h1
      rw [k4]
    refine ⟨e0, e1, ⟨st'.model.paretoModel.map fun p => p.2.1 ++ p.2.2, st'.model.paretoModel.map fun p => f p.1,
      st'.model.paretoData.map fun p => p.2.1, List.zipWith (fun o s => o ++ s) st'.observations st'.samples⟩, st'.model.models, st'.model.paretoData, st'.model.paretoModel, ?_, b1, b4 ▸ a1, ?_, rfl, rfl, rfl, ?_, ?_⟩
    rotate_left
    · show List.zipWith (fun o s => o ++ s) st'.observations st'.samples = _
      rw [e0, e1, ← hI.zip]
      generalize st.samples = S
      generalize st.observations = O
      induction S generalizing O with
      | nil => cases O <;> rfl
      | cons a S ih => cases O with
        | nil => rfl
        | cons b O => simp [ih]
    · intro ea hea
      unfold updateParetoModel at h2
      cases hm : updateModels P s1 with
      | ub => rw [hm] at h2; cases h2
      | diverge => rw [hm] at h2; cases h2
      | throw e s => rw [hm] at h2; cases h2
      | ok s2 =>
        rw [hm] at h2
        simp only [Res.andThen, Res.bind, hea, Res.ok.injEq] at h2
        subst h2
        exact ⟨s2, rfl⟩
    · intro hno
      unfold updateParetoModel at h2
      cases hm : updateModels P s1 with
      | ub => rw [hm] at h2; cases h2
      | diverge => rw [hm] at h2; cases h2
      | throw e s => rw [hm] at h2; cases h2
      | ok s2 =>
        rw [hm] at h2
        simp only [Res.andThen, Res.bind, hno, Res.ok.injEq] at h2
        subst h2
        obtain ⟨-, -, -, ms, -, -, -, -, hs2⟩ := updateModels_ok hm
        rw [hs2]
        exact hpm
    · unfold benchFiles
      rw [if_neg (by rw [e0, e1, hI.len]; omega)]

/-- **C106**: `stat::ParetoBenchmark` does return when there is data with at least two objectives and the model accepts it ... -/
theorem C106_benchmark_defined (c : Int) (ops : List (MuOp α M)) (st : BoState α (MM α M)) (nsbo : Bool) (dim d : Nat) (hd : 1 < d)
    (h : muOps P ops (newMulti P c) = some st) (hO : ∀ v ∈ st.observations, v.length = d) (hne : st.observations ≠ [])
    (hc : ∀ s v m, s ≠ [] → s.length = v.length → ∃ m', P.ops.compute s v m = .ok m') : ∃ st', paretoBenchmark P nsbo dim st = .ok st' := by
  obtain ⟨s1, h1⟩ := C72_defined P c ops st d hd h hO hne
  have hr := muOps_snoc (.updateParetoData) s1 ops _ st h h1
  obtain ⟨o0, r, -, -, -, k4⟩ := updateParetoData_ok h1
  have e : s1.observations = st.observations := by rw [k4]
  obtain ⟨s2, h2⟩ := C73_defined P c _ s1 dim d hr (by rw [e]; exact hO) (by rw [e]; exact hne) hc
  unfold paretoBenchmark
  rw [h1]
  simp only [Res.andThen, Res.bind]
  cases nsbo
  · exact ⟨s2, h2⟩
  · exact ⟨s1, rfl⟩

/-- ... and is undefined without data or with less than two objectives. -/
theorem C106_benchmark_undefined (st : BoState α (MM α M)) (nsbo : Bool) (dim : Nat) (h : ∀ v, st.observations.head? = some v → v.length ≤ 1) :
    paretoBenchmark P nsbo dim st = .ub := by
  unfold paretoBenchmark
  rw [C72_undefined P st h]
  rfl

end bench

/-! ## Examples -/

/-- `exP` with the Pareto front as only statistic and two iterations per run. -/
def exPf : BoParams F64 (List (List F64 × List F64)) :=
  { exP with stop := [maxIterations 2], stats := [statParetoFront fun _ => psetOf fun p => p.2] }

/-- Two objectives: the `n`-th call returns `(n, 1)`, but `(0, 2)` at the second call. -/
def exPfF : StateFun F64 (List (List F64 × List F64)) where
  dimIn := 1
  dimOut := 2
  call := fun tr _ => .ret (if (callPts tr).length = 1 then [F64.of 0, F64.of 2] else [F64.of (callPts tr).length, F64.of 1])

/-- a run, and a second one that continues it -/
def exPfOps : List (BoOp F64 (List (List F64 × List F64))) := [.optimize exPfF firstElem true 10, .optimize exPfF firstElem false 10]

theorem exPf_pset : PsetFrontOk (α := F64) (M := List (List F64 × List F64)) fun _ => psetOf fun p => p.2 :=
  fun _ v d hd hne hg => psetOf_ok d _ v hd hne hg

theorem storeOps_noThrow (α : Type) : NoThrow (storeOps α) := ⟨by simp [storeOps], by simp [storeOps], by simp [storeOps]⟩

/-- the front in the example when the last evaluation returned `(n, 1)` -/
def exPfRows (n : Nat) : List (List F64) := [[F64.of (1/2), F64.of n, F64.of 1], [F64.of 1, F64.of 0, F64.of 2]]

/-- **C106** (finding): the numbers of the files restart at 0 in every run, so a run that continues an earlier one overwrites its files: here
four evaluations, of which the first two files were written by both runs; nothing is left of the fronts of the first run. -/
theorem C106_second_run_overwrites : ∃ st, runOps exPf exPfOps (newBo exPf 0 []) = some st ∧ (statPoints st.trace).length = 4 ∧
    ∃ writes, st.logs[0]? = some (writes.flatMap fun w => w.2.map (.row w.1)) ∧
      writes = [(0, exPfRows 2), (1, exPfRows 3), (0, exPfRows 4), (1, exPfRows 5)] ∧
      fileAfter writes 0 = some (exPfRows 4) ∧ fileAfter writes 1 = some (exPfRows 5) ∧ fileAfter writes 2 = none := by
  have key : (runOps exPf exPfOps (newBo exPf 0 [])).map (fun st => ((statPoints st.trace).length, st.logs[0]?)) =
      some (4, some ([(0, exPfRows 2), (1, exPfRows 3), (0, exPfRows 4), (1, exPfRows 5)].flatMap fun w : Int × List (List F64) =>
        w.2.map (.row w.1))) := by decide +kernel
  obtain ⟨st, h1, h2⟩ := Option.map_eq_some_iff.1 key
  simp only [Prod.mk.injEq] at h2
  exact ⟨st, h1, h2.1, _, h2.2, rfl, by decide +kernel, by decide +kernel, by decide +kernel⟩

/-- hypotheses of the theorems met by the example -/
example : ∃ st, runOps exPf exPfOps (newBo exPf 0 []) = some st ∧
    (∀ f a r n, BoOp.optimize f a r n ∈ exPfOps → a = firstElem) ∧ exPf.statsEnabled = true ∧ NoThrow exPf.ops ∧
    ∀ x y, Event.call x (.ret y) ∈ st.trace ∨ Event.given x y ∈ st.trace → y.length = 2 := by
  have key : (runOps exPf exPfOps (newBo exPf 0 [])).map (fun st => st.trace.all fun e => match e with
      | .call _ (.ret y) => y.length == 2
      | .given _ y => y.length == 2
      | _ => true) = some true := by decide +kernel
  obtain ⟨st, h1, h2⟩ := Option.map_eq_some_iff.1 key
  rw [List.all_eq_true] at h2
  refine ⟨st, h1, ?_, rfl, storeOps_noThrow _, ?_⟩
  · intro f a r n hm
    simp only [exPfOps, List.mem_cons, BoOp.optimize.injEq, List.not_mem_nil, or_false] at hm
    rcases hm with hm | hm <;> exact hm.2.1
  · rintro x y (hm | hm)
    · simpa using h2 _ hm
    · simpa using h2 _ hm

/-- `exMu` with the Pareto front as statistic. -/
def exMuPf : MuParams F64 (List (List F64 × List F64)) :=
  { exMu (F64.of 1) true with bo := { (exMu (F64.of 1) true).bo with statsEnabled := true, stats := [statParetoFront fun _ => psetOf fun p => p.2] } }

example : (muOps exMuPf [.optimize .ehvi (exMuF 1 2) firstElem true 5, .optimize .nsbo (exMuF 1 2) firstElem false 5] (newMulti exMuPf 7)).map
    (fun st => (st.logs, (statPoints st.trace).map fun p => statsInRun p.1)) =
    some ([[.row 0 [F64.of 1, F64.of 1, F64.of 1], .row 1 [F64.of 2, F64.of 2, F64.of 2],
      .row 0 [F64.of 2, F64.of 2, F64.of 2], .row 1 [F64.of 2, F64.of 2, F64.of 2]]], [0, 1, 0, 1]) := by decide +kernel

/-- a benchmark of the example: the two points of the evolutionary algorithm, and the true values there -/
example : (match muOps exMuPf [.optimize .ehvi (exMuF 1 2) firstElem true 5] (newMulti exMuPf 7) with
    | some st => match paretoBenchmark exMuPf false 1 st with
      | .ok st' => (benchFiles (fun x => x ++ x) st').map fun b => (b.model, b.modelReal, b.data, b.obs)
      | _ => none
    | none => none) =
    some ([[F64.of 0, F64.of 0, F64.of (1/2), F64.of (1/2)], [F64.of 1, F64.of 0, F64.of (1/4), F64.of (1/4)]],
      [[F64.of (1/2), F64.of (1/2)], [F64.of (1/4), F64.of (1/4)]], [[F64.of 2, F64.of 2]],
      [[F64.of 0, F64.of 0, F64.of 0], [F64.of 1, F64.of 1, F64.of 1], [F64.of 2, F64.of 2, F64.of 2]]) := by decide +kernel

end Limbo
