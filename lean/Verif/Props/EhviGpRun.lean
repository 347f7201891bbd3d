import Verif.Props.EhviGp
import Verif.Lemmas.BoGpSafe
import Verif.Props.Confidence

/-! # C112: a run of EHVI with GPs returns -/

namespace Limbo

open Gp Ehvi

variable {E : GpEnv}

/-- data the loop can work with -/
structure GoodMu (P : MuParams XR (GpState E)) (Q : ℝ → ℝ → Prop) (d : Nat) (st : BoState XR (MM XR (GpState E))) : Prop where
  ne : st.samples ≠ []
  len : st.samples.length = st.observations.length
  pts : ∀ x ∈ st.samples, PointOk d x
  obs : ∀ v ∈ st.observations, ∃ y z : ℝ, v = [XR.fin y, XR.fin z] ∧ Q y z
  logs : st.logs.length = P.bo.stats.length

theorem evalAndAdd_good {f : StateFun XR (MM XR (GpState E))} {x : List XR} {st : BoState XR (MM XR (GpState E))} {y z : ℝ}
    (h : f.call st.trace x = .ret [XR.fin y, XR.fin z]) : 
    evalAndAdd f x st = .ok { st with samples := st.samples ++ [x], observations := st.observations ++ [[XR.fin y, XR.fin z]], trace := st.trace ++ [.call x (.ret [XR.fin y, XR.fin z])] } := by
  unfold evalAndAdd
  rw [h]
  rfl

theorem evalAll_good {P : MuParams XR (GpState E)} {Q : ℝ → ℝ → Prop} {d : Nat} {f : StateFun XR (MM XR (GpState E))} (hf : ∀ tr x, PointOk d x → ∃ y z : ℝ, f.call tr x = .ret [XR.fin y, XR.fin z] ∧ Q y z) :
    ∀ (pts : List (List XR)) (st : BoState XR (MM XR (GpState E))), (pts ≠ [] ∨ st.samples ≠ []) → (∀ x ∈ pts, PointOk d x) →
      st.samples.length = st.observations.length → (∀ x ∈ st.samples, PointOk d x) → (∀ v ∈ st.observations, ∃ y z : ℝ, v = [XR.fin y, XR.fin z] ∧ Q y z) →
      st.logs.length = P.bo.stats.length → ∃ st', evalAll f pts st = .ok st' ∧ GoodMu P Q d st' ∧ st'.currentIteration = st.currentIteration := by
  intro pts
  induction pts with
  | nil => intro st h0 _ h1 h2 h3 h4; exact ⟨st, rfl, ⟨h0.resolve_left (by simp), h1, h2, h3, h4⟩, rfl⟩
  | cons x xs ih =>
    intro st _ hp h1 h2 h3 h4
    obtain ⟨y, z, hc, hQ⟩ := hf st.trace x (hp x List.mem_cons_self)
    rw [evalAll, evalAndAdd_good hc]
    refine ih _ (Or.inr (by simp)) (fun q hq => hp q (List.mem_cons_of_mem _ hq)) (by simp [h1]) ?_ ?_ h4
    · intro q hq
      rcases List.mem_append.1 hq with hq | hq
      · exact h2 q hq
      · rw [List.mem_singleton.1 hq]; exact hp x List.mem_cons_self
    · intro q hq
      rcases List.mem_append.1 hq with hq | hq
      · exact h3 q hq
      · exact ⟨y, z, List.mem_singleton.1 hq, hQ⟩

theorem collect_points : ∀ (rs : List (OptRes XR)), (∀ r ∈ rs, ∃ x, r = .point x) → ∃ ss, collect rs = .point ss
  | [], _ => ⟨[], rfl⟩
  | r :: rs, h => by
    obtain ⟨x, rfl⟩ := h r List.mem_cons_self
    obtain ⟨ss, hss⟩ := collect_points rs fun r hr => h r (List.mem_cons_of_mem _ hr)
    exact ⟨x :: ss, by simp only [collect, hss]⟩

theorem mapM_pairs : ∀ (l : List (PPoint XR)), (∀ p ∈ l, ∃ a b, p.2.1 = [a, b]) →
    ∃ pop, l.mapM (fun p : PPoint XR => (do pure (← p.2.1[0]?, ← p.2.1[1]?) : Option (XR × XR))) = some pop ∧ List.Forall₂ (fun p q => p.2.1 = [q.1, q.2]) l pop
  | [], _ => ⟨[], rfl, .nil⟩
  | p :: l, h => by
    obtain ⟨a, b, hab⟩ := h p List.mem_cons_self
    obtain ⟨pop, e1, e2⟩ := mapM_pairs l fun r hr => h r (List.mem_cons_of_mem _ hr)
    refine ⟨(a, b) :: pop, ?_, .cons hab e2⟩
    rw [List.mapM_cons, e1, hab]
    rfl

theorem gridSearch_returns {f : ObjFn XR} {b fuel : Nat} (hb : 0 < b) (hfuel : b + 2 ≤ fuel) {init : List XR} (hd : 0 < init.length)
    (hval : ∀ z : List ℝ, ∃ v : ℝ, 0 ≤ v ∧ (f (z.map XR.fin) false).1 = XR.fin v) : ∃ r, gridSearch b fuel f init true = some r := by
  obtain ⟨r, hr, -⟩ := C18_grid_search_optimum f b fuel hb hfuel init hd (by
    intro p hp
    refine ⟨_, List.mem_map.2 ⟨0, List.mem_range.2 (by omega), rfl⟩, ?_⟩
    obtain ⟨v, rfl, -⟩ := onGrid_iff.1 hp
    obtain ⟨w, h0, hw⟩ := hval (v ++ [((0 : ℕ) : ℝ) / b])
    rw [List.map_append] at hw
    have hx : (f (v.map XR.fin ++ [XR.fin (((0 : ℕ) : ℝ) / b)]) false).1 = XR.fin w := hw
    show lt negDblMax (f (v.map XR.fin ++ [XR.fin (((0 : ℕ) : ℝ) / b)]) false).1 = true
    rw [hx, negDblMax, XR.lit_eq, XR.lt_fin]
    refine lt_of_lt_of_le ?_ h0
    rw [Rat.cast_neg, neg_lt_zero, Rat.cast_pos]
    refine mul_pos ?_ (by positivity)
    have : (1 : ℚ) < 2 ^ 53 := one_lt_pow₀ (by norm_num) (by norm_num)
    linarith)
  exact ⟨r, hr⟩

/-- the models can be learnt -/
theorem updateModels_good (hE : LawfulEnv E) {P : MuParams XR (GpState E)} (hops : ∃ u junkC junkA hp, P.ops = gpOps E u junkC junkA hp)
    {Q : ℝ → ℝ → Prop} {d : Nat} (hd0 : 0 < d) (st : BoState XR (MM XR (GpState E))) (h : GoodMu P Q d st) :
    ∃ ms, updateModels P st = .ok { st with model := { st.model with models := ms } } := by
  obtain ⟨u, jC, jA, hp, hops⟩ := hops
  have hO2 : ∀ v ∈ st.observations, v.length = 2 ∧ AllFinite v := by
    intro v hv
    obtain ⟨y, z, rfl, -⟩ := h.obs v hv
    refine ⟨rfl, fun x hx => ?_⟩
    rcases List.mem_cons.1 hx with rfl | hx
    · exact ⟨rfl, rfl⟩
    · rw [List.mem_singleton.1 hx]; exact ⟨rfl, rfl⟩
  have hone : st.observations ≠ [] := by
    intro e
    have := h.len
    rw [e] at this
    exact h.ne (List.length_eq_zero_iff.1 this)
  obtain ⟨o0, os, ho⟩ := List.exists_cons_of_ne_nil hone
  obtain ⟨s0, ss, hs⟩ := List.exists_cons_of_ne_nil h.ne
  have hd2 : o0.length = 2 := (hO2 o0 (by rw [ho]; simp)).1
  have hxs : ∃ xs : List (List ℝ), st.samples = xs.map (List.map XR.fin) ∧ ∀ x ∈ xs, x.length = d := by
    have := h.pts
    generalize st.samples = l at this
    induction l with
    | nil => exact ⟨[], rfl, by simp⟩
    | cons x l ih =>
      obtain ⟨xs, e, hx⟩ := ih fun q hq => this q (List.mem_cons_of_mem _ hq)
      obtain ⟨v, rfl⟩ := (this x List.mem_cons_self).1.exists_map
      have hvl := (this _ List.mem_cons_self).2
      refine ⟨v :: xs, by rw [e]; rfl, fun q hq => ?_⟩
      rcases List.mem_cons.1 hq with rfl | hq
      · simpa using hvl
      · exact hx q hq
  obtain ⟨xs, hxs, hxd⟩ := hxs
  have hcol : ∀ j < 2, ∃ ys : List (List ℝ), column j st.observations = ys.map (List.map XR.fin) ∧ ∀ y ∈ ys, y.length = 1 := by
    intro j hj
    have := h.obs
    generalize st.observations = l at this
    induction l with
    | nil => exact ⟨[], rfl, by simp⟩
    | cons x l ih =>
      obtain ⟨ys, e, hy⟩ := ih fun q hq => this q (List.mem_cons_of_mem _ hq)
      obtain ⟨y, z, rfl, -⟩ := this x List.mem_cons_self
      have : ∃ w : ℝ, ([XR.fin y, XR.fin z] : List XR)[j]? = some (XR.fin w) := by
        match j, hj with
        | 0, _ => exact ⟨y, rfl⟩
        | 1, _ => exact ⟨z, rfl⟩
      obtain ⟨w, hw⟩ := this
      refine ⟨[w] :: ys, ?_, fun q hq => ?_⟩
      · unfold column at e ⊢
        rw [List.map_cons, e, hw]; rfl
      · rcases List.mem_cons.1 hq with rfl | hq
        · rfl
        · exact hy q hq
  -- the models
  obtain ⟨cols, c1, c2, c3⟩ := pushRows_spec 2 st.observations (List.replicate o0.length []) (fun v hv => (hO2 v hv).1) (by simp [hd2])
  obtain ⟨ms, hms⟩ := computeModels_def (P := P) (fresh := P.ops.fresh s0.length 1) (S := st.samples) cols [] (fun cl hcl => by
    obtain ⟨j, hj, rfl⟩ := List.getElem_of_mem hcl
    have := c3 j [] (by simp [hd2, ← c2, hj])
    rw [List.getElem?_eq_getElem hj, Option.some.injEq, List.nil_append] at this
    obtain ⟨ys, hys, hy1⟩ := hcol j (by rw [c2] at hj; exact hj)
    have hlen : ys.length = xs.length := by
      have h1 := congrArg List.length hys
      have h2 := congrArg List.length hxs
      rw [column_length, ← h.len, h2] at h1
      simpa using h1.symm
    have hds : DataSet xs ys d 1 := ⟨by rintro rfl; exact h.ne hxs, hlen, hxd, hy1, hd0, one_pos⟩
    rw [this, hys, hxs, hops]
    obtain ⟨m', hmm, -⟩ := track_compute hE (jC xs ys (Gp.newDims E (u s0.length 1) s0.length 1)) ((GpReach.newDims (u s0.length 1) s0.length 1).tracks hE) hds true
    refine ⟨m', ?_⟩
    show gpRes _ = _
    rw [realsL?_map, Option.bind_some, realsL?_map, Option.bind_some]
    show gpRes (Gp.compute (jC xs ys (Gp.newDims E (u s0.length 1) s0.length 1)) (Gp.newDims E (u s0.length 1) s0.length 1) xs ys true) = _
    rw [hmm]; rfl)
  refine ⟨ms, ?_⟩
  unfold updateModels
  have e1 : st.samples.head? = some s0 := by rw [hs]; rfl
  have e2 : st.observations.head? = some o0 := by rw [ho]; rfl
  rw [e1, e2]
  simp only
  rw [c1]
  simp only
  rw [hms]
  rfl

/-- one iteration -/
theorem ehviIteration_good (hE : LawfulEnv E) {P : MuParams XR (GpState E)} {sort : List (ℝ × ℝ) → List (ℝ × ℝ)} {c : Consts} {r : ℝ × ℝ} {b fuel : Nat}
    (hP : UsesEhviGp P sort c r b fuel) {Q : ℝ → ℝ → Prop} {d : Nat} (hd0 : 0 < d) (hstat : ∀ s ∈ P.bo.stats, ∀ st afun, s st afun ≠ none)
    {f : StateFun XR (MM XR (GpState E))} (hf : ∀ tr x, PointOk d x → ∃ y z : ℝ, f.call tr x = .ret [XR.fin y, XR.fin z] ∧ Q y z) (afun : List XR → XR)
    (st : BoState XR (MM XR (GpState E))) (h : GoodMu P Q d st) :
    ∃ st', ehviIteration P f afun st = .ok st' ∧ GoodMu P Q d st' ∧ st'.currentIteration = st.currentIteration + 1 := by
  obtain ⟨u, jC, jA, hp, hops⟩ := hP.ops
  have hO2 : ∀ v ∈ st.observations, v.length = 2 ∧ AllFinite v := by
    intro v hv
    obtain ⟨y, z, rfl, -⟩ := h.obs v hv
    refine ⟨rfl, fun x hx => ?_⟩
    rcases List.mem_cons.1 hx with rfl | hx
    · exact ⟨rfl, rfl⟩
    · rw [List.mem_singleton.1 hx]; exact ⟨rfl, rfl⟩
  have hone : st.observations ≠ [] := by
    intro e
    have := h.len
    rw [e] at this
    exact h.ne (List.length_eq_zero_iff.1 this)
  obtain ⟨o0, os, ho⟩ := List.exists_cons_of_ne_nil hone
  obtain ⟨s0, ss, hs⟩ := List.exists_cons_of_ne_nil h.ne
  have hd2 : o0.length = 2 := (hO2 o0 (by rw [ho]; simp)).1
  obtain ⟨ms, hu⟩ := updateModels_good hE hP.ops hd0 st h
  obtain ⟨s1, hs1⟩ : ∃ s1, updateParetoModel P f.dimIn st = .ok s1 := by
    unfold updateParetoModel
    rw [hu]
    simp only [Res.andThen, Res.bind]
    cases P.sferes <;> exact ⟨_, rfl⟩
  obtain ⟨sm, g1, g2, g3, g4, -⟩ := updateParetoModel_ok hs1
  have eS : s1.samples = st.samples := by rw [g2]
  have eO : s1.observations = st.observations := by rw [g2]
  -- the front
  have hs2 : updateParetoData P s1 = .ok { s1 with model := { s1.model with paretoData := P.pset 1 s1 (List.zipWith (fun x y => (x, y, List.replicate 2 (lit 0))) st.samples st.observations) } } := by
    unfold updateParetoData
    rw [show s1.observations.head? = some o0 by rw [eO, ho]; rfl]
    simp only
    rw [if_pos (by rw [eS, eO]; exact h.len), eS, eO, hd2]
    unfold callPset
    rw [show (List.zipWith (fun x y => (x, y, List.replicate 2 (lit 0))) st.samples st.observations).head? = some (s0, o0, List.replicate 2 (lit 0)) by rw [hs, ho]; rfl]
    simp only [hd2, Nat.one_lt_ofNat, if_true]
  set s2 : BoState XR (MM XR (GpState E)) := { s1 with model := { s1.model with paretoData := P.pset 1 s1 (List.zipWith (fun x y => (x, y, List.replicate 2 (lit 0))) st.samples st.observations) } } with hs2d
  have hL : LearnsFresh P.ops (fixData (E := E)) := by rw [hops]; exact gp_learns hE u jC jA hp
  have hpar : ParetoOf 2 st.samples st.observations s2.model.paretoData := paretoOf_pset hP.pset (by norm_num) h.len hone hO2
  have hfit : FittedTo fixData 2 st.samples st.observations s2.model.models := by
    have := updateModels_fitted hL g1 h.len (fun v hv => (hO2 v hv).1)
    rw [← g3] at this
    exact this
  -- the choice
  obtain ⟨pop, hm1, hm2⟩ := mapM_pairs s2.model.paretoData (fun p hp => by
    obtain ⟨y, z, e, -⟩ := h.obs p.2.1 (List.of_mem_zip ((hpar.2.1 p.1 p.2.1).1 ⟨p.2.2, hp⟩).1).2
    exact ⟨_, _, e⟩)
  obtain ⟨m0, m1, hmm⟩ : ∃ m0 m1, s2.model.models = [m0, m1] := List.length_eq_two.1 hfit.1
  rw [hmm] at hfit
  obtain ⟨xs', ys', -, -, -, -, rp, val, -, -, -, -, -, hval0, hacq⟩ := ehvi_acq hE hP h.len (fun v hv => (hO2 v hv).1) (fun v hv => (hO2 v hv).2)
    (fun s hs' => (h.pts s (List.mem_of_head? hs')).2) h.ne hpar hfit hm2
  obtain ⟨x, hx⟩ : ∃ x, ehviPick P s2 = .point x := by
    unfold ehviPick
    rw [hm1, hmm]
    simp only
    obtain ⟨rs, hrs⟩ := collect_points ((s2.model.paretoData.zipIdx).map fun p => P.inner s2 p.2 (fun x _ => (ehviAcq P pop m0 m1 x, none)) p.1.1 true) (by
      intro q hq
      obtain ⟨⟨p, k⟩, hpk, rfl⟩ := List.mem_map.1 hq
      have hpm := List.fst_mem_of_mem_zipIdx hpk
      have hpt := h.pts p.1 (List.of_mem_zip ((hpar.2.1 p.1 p.2.1).1 ⟨p.2.2, hpm⟩).1).1
      simp only
      rw [hP.inner]
      obtain ⟨t, ht⟩ := gridSearch_returns (f := fun x _ => (ehviAcq P pop m0 m1 x, none)) hP.bins hP.fuel (init := p.1) (by rw [hpt.2]; exact hd0)
        (fun z => ⟨val z, hval0 z, hacq z⟩)
      exact ⟨t, by simp only [Optz.toRes, ht]⟩)
    rw [hrs]
    exact ⟨_, rfl⟩
  have hch := (ehviChoice_of hL hP.pset hP.sched h.len hO2 hs1 hs2 hx).2.2
  obtain ⟨-, -, -, -, -, v, rfl, hv, -⟩ := ehvi_core hE hP hd0 h.len (fun v hv => (hO2 v hv).1) (fun v hv => (hO2 v hv).2)
    (fun s hs' => (h.pts s (List.mem_of_head? hs')).2) hch
  have hvok : PointOk d (v.map XR.fin) := ⟨allFin_map v, by rw [List.length_map]; exact hv.1⟩
  obtain ⟨y, z, hcall, hQ⟩ := hf s2.trace (v.map XR.fin) hvok
  have hlog : s2.logs.length = P.bo.stats.length := by
    have : s2.logs = st.logs := by rw [hs2d]; show s1.logs = st.logs; rw [g2]
    rw [this]; exact h.logs
  have hcur : s2.currentIteration = st.currentIteration := by show s1.currentIteration = st.currentIteration; rw [g2]
  have e2S : s2.samples = st.samples := eS
  have e2O : s2.observations = st.observations := eO
  clear_value s2
  have hgood : ∀ (t : List (Event XR (MM XR (GpState E)))) (lg : List (List (LogLine XR))) (ci ti : Int) (mm : MM XR (GpState E)), lg.length = P.bo.stats.length →
      GoodMu P Q d ⟨s2.samples ++ [v.map XR.fin], s2.observations ++ [[XR.fin y, XR.fin z]], ci, ti, mm, lg, t⟩ := by
    intro t lg ci ti mm hlg
    refine ⟨by simp, by simp [e2S, e2O, h.len], ?_, ?_, hlg⟩
    · intro q hq
      rcases List.mem_append.1 hq with hq | hq
      · rw [e2S] at hq; exact h.pts q hq
      · rw [List.mem_singleton.1 hq]; exact hvok
    · intro q hq
      rcases List.mem_append.1 hq with hq | hq
      · rw [e2O] at hq; exact h.obs q hq
      · exact ⟨y, z, List.mem_singleton.1 hq, hQ⟩
  unfold ehviIteration
  rw [hs1]
  simp only [Res.andThen, Res.bind]
  rw [hs2]
  simp only
  rw [hx]
  simp only [muFinish]
  rw [evalAndAdd_good hcall]
  simp only [Res.andThen, Res.bind, Bool.false_and, Bool.false_eq_true, if_false, updateStats]
  by_cases hst : P.bo.statsEnabled = true
  · simp only [hst, if_true]
    obtain ⟨lg, h1, h2⟩ := refreshStats_some (st := BoState.push { s2 with samples := s2.samples ++ [v.map XR.fin], observations := s2.observations ++ [[XR.fin y, XR.fin z]], trace := s2.trace ++ [.call (v.map XR.fin) (.ret [XR.fin y, XR.fin z])] } (.stat s2.model)) (afun := afun) P.bo.stats s2.logs hlog (fun s hs => hstat s hs _ _)
    have h1' := h1
    simp only [BoState.push] at h1' ⊢
    rw [h1']
    exact ⟨_, rfl, hgood _ _ _ _ _ (by rw [h2]; exact hlog), by simp only [hcur]⟩
  · simp only [hst, Bool.false_eq_true, if_false]
    exact ⟨_, rfl, hgood _ _ _ _ _ hlog, by simp only [BoState.push, hcur]⟩

/-- as `C112_never_fails`, with a property of the values -/
theorem ehvi_returns (hE : LawfulEnv E) (P : MuParams XR (GpState E)) (sort : List (ℝ × ℝ) → List (ℝ × ℝ)) (c : Consts) (r : ℝ × ℝ) (b fuel : Nat)
    (hP : UsesEhviGp P sort c r b fuel) (Q : ℝ → ℝ → Prop) (d : Nat) (hd0 : 0 < d) (hinit : ∀ st, ∃ pts, P.bo.initPts st d = some pts ∧ pts ≠ [] ∧ ∀ x ∈ pts, PointOk d x)
    (hstat : ∀ s ∈ P.bo.stats, ∀ st afun, s st afun ≠ none) (N : Nat) (hstop : P.bo.stop = [maxIterations N])
    (f : StateFun XR (MM XR (GpState E))) (hfd : f.dimIn = d) (hf : ∀ tr x, PointOk d x → ∃ y z : ℝ, f.call tr x = .ret [XR.fin y, XR.fin z] ∧ Q y z)
    (afun : List XR → XR) (ci : Int) (n : Nat) (hn : N < n) :
    ∃ st, muOptimize .ehvi P f afun true n (newMulti P ci) = .ok st ∧ st.currentIteration = N ∧ GoodMu P Q d st := by
  obtain ⟨pts, hp1, hp2, hp3⟩ := hinit (initState true (newMulti P ci))
  obtain ⟨s1, h1, hg, hc⟩ := evalAll_good (P := P) hf pts (initState true (newMulti P ci)) (Or.inl hp2) hp3 rfl
    (by intro x hx; cases hx) (by intro x hx; cases hx) (by simp [initState, BoState.push, newMulti, newBo])
  have hloop : ∀ (n k : Nat) (s : BoState XR (MM XR (GpState E))), GoodMu P Q d s → s.currentIteration = (k : Int) → k ≤ N → N < n + k →
      ∃ st, muLoop P (muBody .ehvi P f afun) afun n s = .ok st ∧ st.currentIteration = N ∧ GoodMu P Q d st := by
    intro n
    induction n with
    | zero => intro k s _ _ h1 h2; omega
    | succ n ih =>
      intro k s hs hk hkN hNk
      unfold muLoop
      rw [if_neg (by intro h0; exact hs.ne (List.length_eq_zero_iff.1 h0))]
      have hb : boStop P.bo afun s = some (decide ((N : Int) ≤ s.currentIteration), { s with trace := s.trace ++ [.asked 0 (decide ((N : Int) ≤ s.currentIteration))] }) := by
        simp only [boStop, hstop, chainCriteria, maxIterations]
        by_cases h0 : (N : Int) ≤ s.currentIteration <;> simp [h0]
      rw [hb]
      by_cases h0 : (N : Int) ≤ s.currentIteration
      · simp only [h0, decide_true]
        exact ⟨_, rfl, by simp only; omega, ⟨hs.ne, hs.len, hs.pts, hs.obs, hs.logs⟩⟩
      · simp only [h0, decide_false]
        obtain ⟨s', e1, e2, e3⟩ := ehviIteration_good hE hP hd0 hstat hf afun { s with trace := s.trace ++ [.asked 0 false] } ⟨hs.ne, hs.len, hs.pts, hs.obs, hs.logs⟩
        show ∃ st, (ehviIteration P f afun _).andThen _ = _ ∧ _
        rw [e1]
        exact ih (k + 1) s' e2 (by rw [e3]; simp only [hk]; push_cast; rfl) (by omega) (by omega)
  unfold muOptimize
  rw [boInit_eq, if_pos (Or.inl rfl), hfd, hp1]
  simp only
  rw [h1]
  exact hloop n 0 s1 hg (by rw [hc]; rfl) (Nat.zero_le _) (by omega)

/-- **C112**: a first run of `Ehvi` with GPs returns normally, after exactly `N` iterations, if the initialiser gives at least one point of the right dimension
and the objective returns two real numbers: neither the models, nor the front, nor the acquisition function, nor grid search ever fail. -/
theorem C112_never_fails (hE : LawfulEnv E) (P : MuParams XR (GpState E)) (sort : List (ℝ × ℝ) → List (ℝ × ℝ)) (c : Consts) (r : ℝ × ℝ) (b fuel : Nat)
    (hP : UsesEhviGp P sort c r b fuel) (d : Nat) (hd0 : 0 < d) (hinit : ∀ st, ∃ pts, P.bo.initPts st d = some pts ∧ pts ≠ [] ∧ ∀ x ∈ pts, PointOk d x)
    (hstat : ∀ s ∈ P.bo.stats, ∀ st afun, s st afun ≠ none) (N : Nat) (hstop : P.bo.stop = [maxIterations N])
    (f : StateFun XR (MM XR (GpState E))) (hfd : f.dimIn = d) (hf : ∀ tr x, PointOk d x → ∃ y z : ℝ, f.call tr x = .ret [XR.fin y, XR.fin z])
    (afun : List XR → XR) (ci : Int) (n : Nat) (hn : N < n) :
    ∃ st, muOptimize .ehvi P f afun true n (newMulti P ci) = .ok st ∧ st.currentIteration = N ∧ ∀ x ∈ st.samples, PointOk d x := by
  obtain ⟨st, h1, h2, h3⟩ := ehvi_returns hE P sort c r b fuel hP (fun _ _ => True) d hd0 hinit hstat N hstop f hfd
    (fun tr x hx => (hf tr x hx).imp fun y h => h.imp fun z h => ⟨h, trivial⟩) afun ci n hn
  exact ⟨st, h1, h2, h3.pts⟩

/-- **C112**: such a run with values above the reference point: after the initial points exactly `N` more are evaluated, and each is a grid point with the largest
expected improvement of the hypervolume given all data before it. -/
theorem C112_first_run (hE : LawfulEnv E) (P : MuParams XR (GpState E)) (sort : List (ℝ × ℝ) → List (ℝ × ℝ)) (hsort : SortsByFirst sort) (r : ℝ × ℝ) (b fuel : Nat)
    (hP : UsesEhviGp P sort Consts.exact r b fuel) (hnoise : 0 < E.KP.noise) (d : Nat) (hd0 : 0 < d) (hinit : ∀ st, ∃ pts, P.bo.initPts st d = some pts ∧ pts ≠ [] ∧ ∀ x ∈ pts, PointOk d x)
    (hstat : ∀ s ∈ P.bo.stats, ∀ st afun, s st afun ≠ none) (N : Nat) (hstop : P.bo.stop = [maxIterations N])
    (f : StateFun XR (MM XR (GpState E))) (hfd : f.dimIn = d) (hf : ∀ tr x, PointOk d x → ∃ y z : ℝ, f.call tr x = .ret [XR.fin y, XR.fin z] ∧ r.1 ≤ y ∧ r.2 ≤ z)
    (afun : List XR → XR) (ci : Int) (n : Nat) (hn : N < n) :
    ∃ st, muOptimize .ehvi P f afun true n (newMulti P ci) = .ok st ∧ ∃ n0 : Nat, st.samples.length = n0 + N ∧ ∀ j x, n0 ≤ j → st.samples[j]? = some x →
      ∃ xs ys v, RealData (st.samples.take j) (st.observations.take j) xs ys ∧ xs ≠ [] ∧ x = v.map XR.fin ∧ GridPt b d v ∧
        ∀ q, GridPt b d q → ehviValue E d r xs ys q ≤ ehviValue E d r xs ys v := by
  obtain ⟨st, h1, h2, h3⟩ := ehvi_returns hE P sort Consts.exact r b fuel hP (fun y z => r.1 ≤ y ∧ r.2 ≤ z) d hd0 hinit hstat N hstop f hfd hf afun ci n hn
  refine ⟨st, h1, ?_⟩
  obtain ⟨n0, e, H⟩ := C112_every_evaluation hE P sort hsort r b fuel hP hnoise d hd0 ci [] f afun true n _ st rfl h1 (fun v hv => by
    obtain ⟨y, z, rfl, hy, hz⟩ := h3.obs v hv
    refine ⟨rfl, fun y' z' e => ?_⟩
    cases e
    exact ⟨(XR.le_fin _ _).2 hy, (XR.le_fin _ _).2 hz⟩) (fun s hs => (h3.pts s (List.mem_of_head? hs)).2)
  exact ⟨n0, by rw [h2] at e; exact_mod_cast e, H⟩

/-! ## A concrete run -/

/-- Two objectives on the unit interval, a GP each, five grid points, two iterations. -/
noncomputable def exEhviGp (c : Consts) : MuParams XR (GpState exBallEnv) where
  bo := { bounded := true, statsEnabled := true, hpPeriod := -1, ops := ⟨fun _ _ => ⟨[], [], []⟩, fun _ _ m => .ok m, fun _ _ m => .ok m, fun m => .ok m⟩,
          initPts := fun _ d => some [List.replicate d (XR.fin 0), List.replicate d (XR.fin 1)], acqui := fun _ _ _ => fun _ _ => (XR.fin 0, none),
          acquiOpt := fun _ _ x _ => .point x, startPt := fun _ d => List.replicate d (XR.fin 0), stop := [maxIterations 2], stats := [statSamples, statObservations] }
  ops := gpOps exBallEnv (fun _ _ => (1, 2)) (fun _ _ _ _ _ => 7) (fun _ _ _ _ _ => 7) .none
  mu := gpMu0
  sigma := gpSigma0
  sferes := none
  pset := fun K _ v => if K = 1 then psetOf (fun p => p.2.1) v else psetOf (fun p => p.2.2) v
  rand := fun st => st.samples.length
  inner := fun _ _ f x bd => (gridSearch 4 6).toRes f x bd
  ehvi2d := ehvi2dX sortsByFirst_exists.choose c
  ref := (XR.fin (-11), XR.fin (-11))
  sched := fun _ n => .chunk n

/-- Two objectives with peaks at the two ends of the interval. -/
noncomputable def exEhviF : StateFun XR (MM XR (GpState exBallEnv)) where
  dimIn := 1
  dimOut := 2
  call := fun _ x => match reals? x with
    | some v => .ret [XR.fin (1 / (1 + v.headD 0 ^ 2)), XR.fin (1 / (1 + (v.headD 0 - 1) ^ 2))]
    | none => .threw

theorem exEhviGp_uses (c : Consts) : UsesEhviGp (exEhviGp c) sortsByFirst_exists.choose c (-11, -11) 4 6 where
  ops := ⟨_, _, _, _, rfl⟩
  mu := rfl
  sigma := rfl
  ehvi := rfl
  ref := rfl
  inner := rfl
  bins := by norm_num
  fuel := by norm_num
  pset := by
    rintro K obj (⟨rfl, rfl⟩ | ⟨rfl, rfl⟩) st w d hd hne hg
    · exact psetOf_ok d _ w hd hne hg
    · exact psetOf_ok d _ w hd hne hg
  sched := fun _ _ => rfl

theorem exEhviGp_parts (c : Consts) : (∀ st, ∃ pts, (exEhviGp c).bo.initPts st 1 = some pts ∧ pts ≠ [] ∧ ∀ x ∈ pts, PointOk 1 x) ∧
    (∀ s ∈ (exEhviGp c).bo.stats, ∀ st afun, s st afun ≠ none) ∧
    ∀ tr x, PointOk 1 x → ∃ y z : ℝ, exEhviF.call tr x = .ret [XR.fin y, XR.fin z] ∧ (-11 : ℝ) ≤ y ∧ (-11 : ℝ) ≤ z := by
  refine ⟨fun _ => ⟨_, rfl, by simp, ?_⟩, ?_, ?_⟩
  · intro x hx
    rcases List.mem_cons.1 hx with rfl | hx
    · exact ⟨allFin_map [0], rfl⟩
    · rw [List.mem_singleton.1 hx]; exact ⟨allFin_map [1], rfl⟩
  · intro s hs st afun
    simp only [exEhviGp, List.mem_cons, List.not_mem_nil, or_false] at hs
    rcases hs with rfl | rfl <;> simp [statSamples, statObservations]
  · intro tr x hx
    obtain ⟨v, rfl⟩ := hx.1.exists_map
    refine ⟨1 / (1 + v.headD 0 ^ 2), 1 / (1 + (v.headD 0 - 1) ^ 2), by simp only [exEhviF, reals?_map], ?_, ?_⟩
    · have : 0 ≤ 1 / (1 + v.headD 0 ^ 2) := by positivity
      linarith
    · have : 0 ≤ 1 / (1 + (v.headD 0 - 1) ^ 2) := by positivity
      linarith

/-- two initial points and two iterations: the run returns -/
example (c : Consts) : ∃ st, muOptimize .ehvi (exEhviGp c) exEhviF (fun v => v.headD (XR.fin 0)) true 3 (newMulti (exEhviGp c) 0) = .ok st ∧
    st.currentIteration = 2 ∧ ∀ x ∈ st.samples, PointOk 1 x :=
  C112_never_fails exBallEnv_lawful _ _ c _ 4 6 (exEhviGp_uses c) 1 one_pos (exEhviGp_parts c).1 (exEhviGp_parts c).2.1 2 rfl exEhviF rfl
    (fun tr x hx => by obtain ⟨y, z, h, -⟩ := (exEhviGp_parts c).2.2 tr x hx; exact ⟨y, z, h⟩) _ 0 3 (by norm_num)

/-- the hypotheses of `C112_first_run` (and with them those of `C112_every_evaluation`) are met -/
example : ∃ st, muOptimize .ehvi (exEhviGp Consts.exact) exEhviF (fun v => v.headD (XR.fin 0)) true 3 (newMulti (exEhviGp Consts.exact) 0) = .ok st ∧
    ∃ n0 : Nat, st.samples.length = n0 + 2 ∧ ∀ j x, n0 ≤ j → st.samples[j]? = some x →
      ∃ xs ys v, RealData (st.samples.take j) (st.observations.take j) xs ys ∧ xs ≠ [] ∧ x = v.map XR.fin ∧ GridPt 4 1 v ∧
        ∀ q, GridPt 4 1 q → ehviValue exBallEnv 1 (-11, -11) xs ys q ≤ ehviValue exBallEnv 1 (-11, -11) xs ys v :=
  C112_first_run exBallEnv_lawful _ _ sortsByFirst_exists.choose_spec (-11, -11) 4 6 (exEhviGp_uses _) (by show (0 : ℝ) < 0.01; norm_num) 1 one_pos
    (exEhviGp_parts _).1 (exEhviGp_parts _).2.1 2 rfl exEhviF rfl (exEhviGp_parts Consts.exact).2.2 _ 0 3 (by norm_num)

end Limbo
