import Verif.Lemmas.BoGp

/-! `BOptimizer` with a model that does its job does not run into undefined behaviour. -/

namespace Limbo

open Gp

/-- postconditions, and no undefined behaviour -/
def Res.Safe {σ : Type} (Q T : σ → Prop) : Res σ → Prop
  | .ok s => Q s
  | .throw _ s => T s
  | .ub => False
  | .diverge => True

theorem Res.Safe.andThen {σ : Type} {Q Q' T : σ → Prop} {r : Res σ} {f : σ → Res σ} (h : r.Safe Q T)
    (hf : ∀ s, Q s → (f s).Safe Q' T) : (r.andThen f).Safe Q' T := by
  cases r with
  | ok s => exact hf s h
  | throw e s => exact h
  | ub => exact h.elim
  | diverge => trivial

theorem Res.Safe.mono {σ : Type} {Q Q' T T' : σ → Prop} {r : Res σ} (h : r.Safe Q T) (hq : ∀ s, Q s → Q' s) (ht : ∀ s, T s → T' s) :
    r.Safe Q' T' := by
  cases r with
  | ok s => exact hq s h
  | throw e s => exact ht s h
  | ub => exact h.elim
  | diverge => trivial

theorem Res.Safe.and {σ : Type} {Q Q' T T' : σ → Prop} {r : Res σ} (h : r.Safe Q T) (h' : r.All Q' T') :
    r.Safe (fun s => Q' s ∧ Q s) (fun s => T' s ∧ T s) := by
  cases r with
  | ok s => exact ⟨h', h⟩
  | throw e s => exact ⟨h', h⟩
  | ub => exact h.elim
  | diverge => trivial

theorem Res.Safe.ne_ub {σ : Type} {Q T : σ → Prop} {r : Res σ} (h : r.Safe Q T) : r ≠ .ub := by
  rintro rfl; exact h

variable {M : Type} {din dout : Nat} {P : BoParams XR M}

/-- sizes are right -/
structure Shape (n din dout : Nat) (st : BoState XR M) : Prop where
  samples : ∀ x ∈ st.samples, PointOk din x
  obs : ∀ v ∈ st.observations, v.length = dout
  logs : st.logs.length = n

/-- the same, and the model satisfies `G` -/
structure ShapeG (G : M → Prop) (n din dout : Nat) (st : BoState XR M) : Prop where
  samples : ∀ x ∈ st.samples, PointOk din x
  obs : ∀ v ∈ st.observations, v.length = dout
  logs : st.logs.length = n
  good : G st.model

theorem Shape.g {n : Nat} {st : BoState XR M} (h : Shape n din dout st) : ShapeG (fun _ => True) n din dout st := ⟨h.samples, h.obs, h.logs, trivial⟩

theorem ShapeG.shape {G : M → Prop} {n : Nat} {st : BoState XR M} (h : ShapeG G n din dout st) : Shape n din dout st := ⟨h.samples, h.obs, h.logs⟩

theorem Shape.of_eq {n : Nat} {st st' : BoState XR M} (h : Shape n din dout st) (h1 : st'.samples = st.samples)
    (h2 : st'.observations = st.observations) (h3 : st'.logs.length = st.logs.length) : Shape n din dout st' :=
  ⟨by rw [h1]; exact h.samples, by rw [h2]; exact h.obs, by rw [h3]; exact h.logs⟩

variable {G : M → Prop}

theorem ShapeG.of_eq {n : Nat} {st st' : BoState XR M} (h : ShapeG G n din dout st) (h1 : st'.samples = st.samples)
    (h2 : st'.observations = st.observations) (h3 : st'.logs.length = st.logs.length) (h4 : st'.model = st.model) : ShapeG G n din dout st' :=
  ⟨by rw [h1]; exact h.samples, by rw [h2]; exact h.obs, by rw [h3]; exact h.logs, by rw [h4]; exact h.good⟩

theorem addNewSample_shape {n : Nat} {s v : List XR} {st : BoState XR M} (h : ShapeG G n din dout st) (hs : PointOk din s) (hv : v.length = dout) :
    (addNewSample s v st).Safe (ShapeG G n din dout) (ShapeG G n din dout) := by
  unfold addNewSample
  split
  · exact h
  · refine ⟨?_, ?_, h.logs, h.good⟩
    · intro x hx
      rcases List.mem_append.1 hx with hx | hx
      · exact h.samples x hx
      · rw [List.mem_singleton.1 hx]; exact hs
    · intro w hw
      rcases List.mem_append.1 hw with hw | hw
      · exact h.obs w hw
      · rw [List.mem_singleton.1 hw]; exact hv

theorem evalAndAdd_shape {n : Nat} {f : StateFun XR M} {x : List XR} {st : BoState XR M} (h : ShapeG G n din dout st)
    (hf : ObjectiveOk din dout f) (hx : PointOk din x) : (evalAndAdd f x st).Safe (ShapeG G n din dout) (ShapeG G n din dout) := by
  unfold evalAndAdd
  simp only
  split
  · exact h.of_eq rfl rfl rfl rfl
  · next v hv => exact addNewSample_shape (h.of_eq rfl rfl rfl rfl) hx (hf.2 _ _ _ hv)

theorem evalAll_shape {n : Nat} {f : StateFun XR M} (hf : ObjectiveOk din dout f) (pts : List (List XR)) (hp : ∀ x ∈ pts, PointOk din x) :
    ∀ st : BoState XR M, ShapeG G n din dout st → (evalAll f pts st).Safe (ShapeG G n din dout) (ShapeG G n din dout) := by
  induction pts with
  | nil => intro st h; exact h
  | cons x xs ih =>
    intro st h
    exact (evalAndAdd_shape h hf (hp x (by simp))).andThen (ih fun y hy => hp y (by simp [hy]))

theorem refreshStats_some {st : BoState XR M} {afun : List XR → XR} : ∀ (ss : List (Stat XR M)) (ls : List (List (LogLine XR))),
    ls.length = ss.length → (∀ s ∈ ss, s st afun ≠ none) → ∃ ls', refreshStats st afun ss ls = some ls' ∧ ls'.length = ls.length := by
  intro ss
  induction ss with
  | nil => intro ls _ _; exact ⟨ls, by simp [refreshStats], rfl⟩
  | cons s ss ih =>
    intro ls hl hs
    cases ls with
    | nil => simp at hl
    | cons l ls =>
      obtain ⟨ls', h1, h2⟩ := ih ls (by simpa using hl) fun t ht => hs t (by simp [ht])
      obtain ⟨new, hn⟩ := Option.ne_none_iff_exists'.1 (hs s (by simp))
      exact ⟨(l ++ new) :: ls', by simp [refreshStats, h1, hn], by simp [h2]⟩

theorem allFinite_allFin {v : List XR} (h : AllFinite v) : AllFin v := by
  intro x hx
  obtain ⟨h1, h2⟩ := h x hx
  rw [← XR.isFinite_iff]
  simp [isFinite, h1, h2]

theorem allFinL {vs : List (List XR)} (h : ∀ v ∈ vs, AllFin v) : ∃ l : List (List ℝ), vs = l.map (List.map XR.fin) := by
  induction vs with
  | nil => exact ⟨[], rfl⟩
  | cons v vs ih =>
    obtain ⟨l, rfl⟩ := ih fun w hw => h w (by simp [hw])
    obtain ⟨x, rfl⟩ := (h v (by simp)).exists_map
    exact ⟨x :: l, rfl⟩

/-- the data set a well-formed optimizer state holds -/
theorem stored_dataset {n : Nat} {st : BoState XR M} (h : ShapeG G n din dout st) (hi : DataInv st) (hdi : 0 < din) (hdo : 0 < dout)
    (hne : st.samples ≠ []) : ∃ xs ys, st.samples = xs.map (List.map XR.fin) ∧ st.observations = ys.map (List.map XR.fin) ∧ DataSet xs ys din dout := by
  obtain ⟨xs, hxs⟩ := allFinL fun x hx => (h.samples x hx).1
  obtain ⟨ys, hys⟩ := allFinL fun v hv => allFinite_allFin (hi.fin v hv)
  refine ⟨xs, ys, hxs, hys, ?_, ?_, ?_, ?_, hdi, hdo⟩
  · rintro rfl; rw [hxs] at hne; exact hne rfl
  · have := hi.len; rw [hxs, hys] at this; simpa using this.symm
  · intro x hx
    have := (h.samples (x.map XR.fin) (by rw [hxs]; exact List.mem_map_of_mem hx)).2
    simpa using this
  · intro y hy
    have := h.obs (y.map XR.fin) (by rw [hys]; exact List.mem_map_of_mem hy)
    simpa using this

/-- the components of the optimizer do their job, except perhaps the optimizer of the acquisition function -/
structure PartsFor (F : M → List (List XR × List XR) → Prop) (P : BoParams XR M) (din dout : Nat) : Prop where
  din_pos : 0 < din
  dout_pos : 0 < dout
  init : ∀ st, ∃ pts, P.initPts st din = some pts ∧ ∀ x ∈ pts, PointOk din x
  stop : ∀ c ∈ P.stop, ∀ st afun, F st.model (st.samples.zip st.observations) → c st afun ≠ none
  stats : ∀ s ∈ P.stats, ∀ st afun, StatMomentFor F din st → s st afun ≠ none

/-- the model does its job: its calls keep the relation `R` between model and data, succeed on data of the right shape, and make the model
predict in the sense of `F`; `G` is a property it always has -/
structure SafeModel (R F : M → List (List XR × List XR) → Prop) (G : M → Prop) (P : BoParams XR M) (din dout : Nat) : Prop where
  law : LawfulRel P.ops R
  fits : ∀ {m d}, R m d → G m → F m d
  compute : ∀ {m d}, R m d → ∀ {xs ys}, DataSet xs ys din dout →
    ∃ m', P.ops.compute (xs.map (List.map XR.fin)) (ys.map (List.map XR.fin)) m = .ok m' ∧ G m'
  add : ∀ {m xs ys}, R m (finPairs xs ys) → G m → xs.length = ys.length → ∀ {x y}, DataSet (xs ++ [x]) (ys ++ [y]) din dout →
    ∃ m', P.ops.addSample (x.map XR.fin) (y.map XR.fin) m = .ok m' ∧ G m'
  hp : 0 < P.hpPeriod → ∀ {m d}, R m d → d ≠ [] → G m → ∃ m', P.ops.optHp m = .ok m' ∧ G m'

theorem ComponentsFor.parts {F : M → List (List XR × List XR) → Prop} (h : ComponentsFor F P din dout) : PartsFor F P din dout :=
  ⟨h.din_pos, h.dout_pos, h.init, h.stop, h.stats⟩

variable {R F : M → List (List XR × List XR) → Prop}

theorem boIteration_safeFor (hM : SafeModel R F G P din dout)
    (hC : PartsFor F P din dout) {f : StateFun XR M} (hf : ObjectiveOk din dout f) (afun : List XR → XR) (st : BoState XR M)
    (h : RelQ R st) (hs : ShapeG G P.stats.length din dout st)
    (hin : (∃ y, P.acquiOpt (st.push (.acqui st.model st.currentIteration)) (fun x g => P.acqui (st.push (.acqui st.model st.currentIteration)).model (st.push (.acqui st.model st.currentIteration)).currentIteration afun x g)
        (P.startPt (st.push (.acqui st.model st.currentIteration)) din) P.bounded = .point y ∧ PointOk din y) ∨
      P.acquiOpt (st.push (.acqui st.model st.currentIteration)) (fun x g => P.acqui (st.push (.acqui st.model st.currentIteration)).model (st.push (.acqui st.model st.currentIteration)).currentIteration afun x g)
        (P.startPt (st.push (.acqui st.model st.currentIteration)) din) P.bounded = .threw) :
    (boIteration P f afun st).Safe (ShapeG G P.stats.length din dout) (ShapeG G P.stats.length din dout) := by
  have hL := hM.law
  have h0 : RelQ R (st.push (.acqui st.model st.currentIteration)) :=
    ⟨h.inv.push _ (by simp [Event.neutral]), h.tr.snoc (by show R st.model (expect st.trace); rw [← h.inv.zip]; exact h.model), h.model⟩
  have hs0 : ShapeG G P.stats.length din dout (st.push (.acqui st.model st.currentIteration)) := hs.of_eq rfl rfl rfl rfl
  unfold boIteration
  simp only
  rw [hf.1]
  rcases hin with ⟨x, hx, hxo⟩ | hx
  swap
  · rw [hx]; exact hs0
  rw [hx]
  simp only
  refine ((evalAndAdd_shape hs0 hf hxo).and (evalAndAdd_rel f x _ h0)).mono (Q' := fun s => (∃ v, RelL R x v s) ∧ ShapeG G P.stats.length din dout s)
    (T' := ShapeG G P.stats.length din dout) (fun s h => h) (fun s h => h.2) |>.andThen ?_
  rintro s1 ⟨⟨v, h1⟩, hs1⟩
  have h1' : RelL R x v (s1.push (.stat s1.model)) := by
    refine ⟨h1.inv.push _ (by simp [Event.neutral]), h1.tr.snoc ?_, h1.model, h1.lastS, h1.lastV⟩
    obtain ⟨d, hd, hz⟩ := h1.model
    exact ⟨d, (x, v), hd, by rw [← h1.inv.zip, hz]⟩
  have hne1 : s1.samples ≠ [] := by intro e; have := h1.lastS; rw [e] at this; cases this
  have hstat : (updateStats P afun s1).Safe (fun s => RelL R x v s ∧ ShapeG G P.stats.length din dout s) (ShapeG G P.stats.length din dout) := by
    unfold updateStats
    simp only
    split
    · obtain ⟨ls', h2, h3⟩ := refreshStats_some (st := s1.push (.stat s1.model)) (afun := afun) P.stats (s1.push (.stat s1.model)).logs hs1.logs
        fun s hsm => hC.stats s hsm _ _ (by
          obtain ⟨d, hd, hz⟩ := h1.model
          exact ⟨h1.inv.len.symm, d, x, v, hz, hs1.samples x (List.mem_of_getLast? h1.lastS),
            allFinite_allFin (h1.inv.fin v (List.mem_of_getLast? h1.lastV)), hM.fits hd hs1.good⟩)
      rw [h2]
      exact ⟨⟨h1'.inv.of_eq rfl rfl rfl, h1'.tr, h1'.model, h1'.lastS, h1'.lastV⟩, hs1.of_eq rfl rfl (by simpa [BoState.push] using h3) rfl⟩
    · exact ⟨h1', hs1.of_eq rfl rfl rfl rfl⟩
  refine hstat.andThen ?_
  rintro s2 ⟨h2, hs2⟩
  have hne2 : s2.samples ≠ [] := by intro e; have := h2.lastS; rw [e] at this; cases this
  obtain ⟨xs, ys, hxs, hys, hds⟩ := stored_dataset hs2 h2.inv hC.din_pos hC.dout_pos hne2
  have hadd : (boModelAdd P s2).Safe (fun s => RelQ R s ∧ s.samples ≠ [] ∧ ShapeG G P.stats.length din dout s) (ShapeG G P.stats.length din dout) := by
    obtain ⟨d, hd, hz⟩ := h2.model
    unfold boModelAdd
    rw [h2.lastS, h2.lastV]
    simp only
    obtain ⟨xs0, x1, rfl⟩ : ∃ a b, xs = a ++ [b] := ⟨_, _, (List.dropLast_append_getLast hds.nonempty).symm⟩
    have hyne : ys ≠ [] := by rintro rfl; have := hds.same; simp at this
    obtain ⟨ys0, v1, rfl⟩ : ∃ a b, ys = a ++ [b] := ⟨_, _, (List.dropLast_append_getLast hyne).symm⟩
    have hl0 : xs0.length = ys0.length := by have := hds.same; simpa using this.symm
    rw [hxs, hys, zip_finPairs, finPairs_snoc hl0] at hz
    obtain ⟨e1, e2⟩ := List.append_inj' hz rfl
    simp only [List.cons.injEq, Prod.mk.injEq, and_true] at e2
    obtain ⟨e2, e3⟩ := e2
    obtain ⟨m, hok, hgm⟩ := hM.add (by rw [e1]; exact hd) hs2.good hl0 hds
    rw [e2, e3] at hok
    rw [hok]
    refine ⟨⟨h2.inv.of_eq rfl rfl rfl, h2.tr, ?_⟩, hne2, hs2.samples, hs2.obs, hs2.logs, hgm⟩
    show R m (s2.samples.zip s2.observations)
    have := hL.addSample _ _ _ _ _ hd hok
    rw [hxs, hys, zip_finPairs, finPairs_snoc hl0, e1, e2, e3]; exact this
  refine hadd.andThen ?_
  rintro s3 ⟨h3, hne3, hs3⟩
  have hhp : (boHp P s3).Safe (fun s => ShapeG G P.stats.length din dout s ∧ True) (ShapeG G P.stats.length din dout) := by
    unfold boHp
    split
    · next hper =>
      obtain ⟨g, hok, hgm⟩ := hM.hp hper.1 h3.model (by
        intro h4
        have h4 := congrArg List.length h4
        simp [List.length_zip, ← h3.inv.len] at h4
        exact hne3 h4) hs3.good
      show (withModel _ (P.ops.optHp s3.model)).Safe _ _
      rw [hok]
      exact ⟨⟨hs3.samples, hs3.obs, hs3.logs, hgm⟩, trivial⟩
    · exact ⟨hs3, trivial⟩
  refine hhp.andThen ?_
  rintro s4 ⟨h4, -⟩
  exact h4.of_eq rfl rfl rfl rfl

theorem boStop_someFor (hfits : ∀ {m d}, R m d → G m → F m d) (hC : PartsFor F P din dout) (afun : List XR → XR) (st : BoState XR M)
    (h : RelQ R st) (hg : G st.model) : boStop P afun st ≠ none := by
  unfold boStop
  have : ∀ (cs : List (Criterion XR M)) (k : Nat) (b : Bool) (tr : List (Event XR M)), (∀ c ∈ cs, c st afun ≠ none) →
      chainCriteria st afun cs k b tr ≠ none := by
    intro cs
    induction cs with
    | nil => intro k b tr _ h; simp [chainCriteria] at h
    | cons c cs ihc =>
      intro k b tr hcs
      unfold chainCriteria
      split
      · exact ihc _ _ _ fun d hd => hcs d (by simp [hd])
      · obtain ⟨b', hb'⟩ := Option.ne_none_iff_exists'.1 (hcs c (by simp))
        rw [hb']
        exact ihc _ _ _ fun d hd => hcs d (by simp [hd])
  obtain ⟨r, hr⟩ := Option.ne_none_iff_exists'.1 (this P.stop 0 false st.trace fun c hc => hC.stop c hc st afun (hfits h.model hg))
  rw [hr]; simp

theorem boLoop_safeFor (hM : SafeModel R F G P din dout)
    (hC : ComponentsFor F P din dout) {f : StateFun XR M} (hf : ObjectiveOk din dout f) (afun : List XR → XR) : ∀ (fuel : Nat)
    (st : BoState XR M), RelQ R st → ShapeG G P.stats.length din dout st →
    (boLoop P f afun fuel st).Safe (ShapeG G P.stats.length din dout) (ShapeG G P.stats.length din dout) := by
  have hL := hM.law
  intro fuel
  induction fuel with
  | zero => intro st _ _; trivial
  | succ n ih =>
    intro st h hs
    unfold boLoop
    have hne := boStop_someFor (R := R) (F := F) (G := G) hM.fits hC.parts afun st h hs.good
    split
    · next hs' => exact absurd hs' hne
    · next st' hs' =>
      obtain ⟨as, rfl, -⟩ := boStop_spec hs'
      exact hs.of_eq rfl rfl rfl rfl
    · next st' hs' =>
      have h' := boStop_rel hs' h
      obtain ⟨as, rfl, -⟩ := boStop_spec hs'
      refine ((boIteration_safeFor hM hC.parts hf afun _ h' (hs.of_eq rfl rfl rfl rfl) (hC.inner (_ : BoState XR M) afun (hM.fits h'.model hs.good))).and (boIteration_rel hL f afun _ h')).mono
        (Q' := fun s => RelQ R s ∧ ShapeG G P.stats.length din dout s) (T' := ShapeG G P.stats.length din dout) (fun s h => h) (fun s h => h.2) |>.andThen ?_
      rintro s ⟨h1, h2⟩
      exact ih s h1 h2

theorem boInit_safeFor (hC : PartsFor F P din dout) {f : StateFun XR M} (hf : ObjectiveOk din dout f) (reset : Bool)
    (st : BoState XR M) (hs : ShapeG G P.stats.length din dout st) :
    (boInit P f reset (st.push (.start reset))).Safe (ShapeG G P.stats.length din dout) (ShapeG G P.stats.length din dout) := by
  have hs0 : ShapeG G P.stats.length din dout (initState reset st) := by
    cases reset
    · exact hs.of_eq rfl rfl rfl rfl
    · exact ⟨by simp [initState], by simp [initState], hs.logs, hs.good⟩
  rw [boInit_eq]
  split
  · obtain ⟨pts, h1, h2⟩ := hC.init (initState reset st)
    rw [hf.1, h1]
    exact evalAll_shape hf pts h2 _ hs0
  · exact hs0

theorem boModelInit_safeFor (hM : SafeModel R F G P din dout)
    (hC : PartsFor F P din dout) {f : StateFun XR M} (hfr : G (P.ops.fresh f.dimIn f.dimOut)) (s1 : BoState XR M) (h1 : RelT R s1) (hs1 : ShapeG (fun _ => True) P.stats.length din dout s1) :
    (boModelInit P f s1).Safe (fun s => RelQ R s ∧ ShapeG G P.stats.length din dout s) (ShapeG (fun _ => True) P.stats.length din dout) := by
  have hL := hM.law
  unfold boModelInit
  obtain ⟨d, hd⟩ := h1.wf
  split
  · next he =>
    refine ⟨⟨h1.inv.of_eq rfl rfl rfl, h1.tr, ?_⟩, hs1.samples, hs1.obs, hs1.logs, hfr⟩
    simp only [List.isEmpty_iff] at he
    simp only [he, List.zip_nil_right]
    exact hL.fresh _ _
  · next he =>
    simp only [List.isEmpty_iff] at he
    have hne : s1.samples ≠ [] := by
      intro e
      have := h1.inv.len
      rw [e] at this
      exact he (List.length_eq_zero_iff.1 this.symm)
    obtain ⟨xs, ys, hxs, hys, hds⟩ := stored_dataset hs1 h1.inv hC.din_pos hC.dout_pos hne
    obtain ⟨m, hok, hgm⟩ := hM.compute hd hds
    rw [← hxs, ← hys] at hok
    rw [hok]
    exact ⟨⟨h1.inv.of_eq rfl rfl rfl, h1.tr, hL.compute _ _ _ _ _ hd h1.inv.len hok⟩, hs1.samples, hs1.obs, hs1.logs, hgm⟩

theorem optimize_safeFor (hM : SafeModel R F G P din dout)
    (hC : ComponentsFor F P din dout) {f : StateFun XR M} (hf : ObjectiveOk din dout f) (hfr : G (P.ops.fresh f.dimIn f.dimOut)) (afun : List XR → XR) (reset : Bool) (fuel : Nat)
    (st : BoState XR M) (h : RelT R st) (hs : ShapeG (fun _ => True) P.stats.length din dout st) :
    (optimize P f afun reset fuel st).Safe (ShapeG (fun _ => True) P.stats.length din dout) (ShapeG (fun _ => True) P.stats.length din dout) := by
  have hL := hM.law
  unfold optimize
  have hinit := boInit_safeFor hC.parts hf reset st hs
  refine (hinit.and (boInit_relT P f reset st h)).mono (Q' := fun s => RelT R s ∧ ShapeG (fun _ => True) P.stats.length din dout s)
    (T' := ShapeG (fun _ => True) P.stats.length din dout) (fun s h => h) (fun s h => h.2) |>.andThen ?_
  rintro s1 ⟨h1, hs1⟩
  have hm := boModelInit_safeFor hM hC.parts hfr s1 h1 hs1
  refine hm.andThen ?_
  rintro s2 ⟨h2, hs2⟩
  exact (boLoop_safeFor hM hC hf afun fuel s2 h2 hs2).mono (fun _ h => h.shape.g) (fun _ h => h.shape.g)

/-- a new model for this call satisfies `G` -/
def FreshOk (G : M → Prop) (P : BoParams XR M) : BoOp XR M → Prop
  | .optimize f _ _ _ => G (P.ops.fresh f.dimIn f.dimOut)
  | _ => True

theorem runOp_safeFor (hM : SafeModel R F G P din dout)
    (hC : ComponentsFor F P din dout) (op : BoOp XR M) (hop : BoOpOk din dout op) (hfr : FreshOk G P op) (st : BoState XR M) (h : RelT R st)
    (hs : ShapeG (fun _ => True) P.stats.length din dout st) : (runOp P op st).Safe (ShapeG (fun _ => True) P.stats.length din dout) (ShapeG (fun _ => True) P.stats.length din dout) := by
  cases op with
  | optimize f afun reset fuel => exact optimize_safeFor hM hC hop hfr afun reset fuel st h hs
  | addNewSample s v => exact addNewSample_shape (hs.of_eq rfl rfl rfl rfl) hop.1 hop.2
  | evalAndAdd f x => exact evalAndAdd_shape hs hop.1 hop.2

theorem runOps_safeFor (hM : SafeModel R F G P din dout)
    (hC : ComponentsFor F P din dout) : ∀ (ops : List (BoOp XR M)), (∀ o ∈ ops, BoOpOk din dout o ∧ FreshOk G P o) → ∀ (st st' : BoState XR M),
    RelT R st → ShapeG (fun _ => True) P.stats.length din dout st → runOps P ops st = some st' → RelT R st' ∧ ShapeG (fun _ => True) P.stats.length din dout st' := by
  have hL := hM.law
  intro ops
  induction ops with
  | nil => intro _ st st' h hs he; simp only [runOps, Option.some.injEq] at he; subst he; exact ⟨h, hs⟩
  | cons o os ih =>
    intro ho st st' h hs he
    have h1 := runOp_rel hL o st h
    have h2 := runOp_safeFor hM hC o (ho o (by simp)).1 (ho o (by simp)).2 st h hs
    simp only [runOps] at he
    cases hr : runOp P o st with
    | ok s => rw [hr] at h1 h2 he; exact ih (fun o h => ho o (by simp [h])) s st' h1 h2 he
    | throw e s => rw [hr] at h1 h2 he; exact ih (fun o h => ho o (by simp [h])) s st' h1 h2 he
    | ub => rw [hr] at he; cases he
    | diverge => rw [hr] at he; cases he

end Limbo
