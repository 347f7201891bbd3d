import Verif.Props.NsboGp
import Verif.Props.EhviGpRun

/-! # C121: a run of NSBO with GPs returns -/

namespace Limbo

open Gp Ehvi

variable {E : GpEnv}

/-- one iteration -/
theorem nsboIteration_good (hE : LawfulEnv E) {P : MuParams XR (GpState E)} {ea : BoState XR (MM XR (GpState E)) → Nat → List (List XR × List XR)}
    (hP : UsesNsboGp P ea) {Q : ℝ → ℝ → Prop} {d : Nat} (hd0 : 0 < d) (hea : ∀ s, ea s d ≠ [] ∧ ∀ p ∈ ea s d, p.1.length = d)
    (hstat : ∀ s ∈ P.bo.stats, ∀ st afun, s st afun ≠ none) {f : StateFun XR (MM XR (GpState E))} (hfd : f.dimIn = d)
    (hf : ∀ tr x, PointOk d x → ∃ y z : ℝ, f.call tr x = .ret [XR.fin y, XR.fin z] ∧ Q y z) (afun : List XR → XR)
    (st : BoState XR (MM XR (GpState E))) (h : GoodMu P Q d st) :
    ∃ st', nsboIteration P f afun st = .ok st' ∧ GoodMu P Q d st' ∧ st'.currentIteration = st.currentIteration + 1 := by
  have hO2 : ∀ v ∈ st.observations, v.length = 2 ∧ AllFinite v := by
    intro v hv
    obtain ⟨y, z, rfl, -⟩ := h.obs v hv
    refine ⟨rfl, fun x hx => ?_⟩
    rcases List.mem_cons.1 hx with rfl | hx
    · exact ⟨rfl, rfl⟩
    · rw [List.mem_singleton.1 hx]; exact ⟨rfl, rfl⟩
  obtain ⟨ms, hu⟩ := updateModels_good hE hP.ops hd0 st h
  have hL : LearnsFresh P.ops (fixData (E := E)) := by
    obtain ⟨u, jC, jA, hp, e⟩ := hP.ops
    rw [e]; exact gp_learns hE u jC jA hp
  have hfit : FittedTo fixData 2 st.samples st.observations ms := updateModels_fitted hL hu h.len (fun v hv => (hO2 v hv).1)
  obtain ⟨xs, -, -, hsg⟩ := nsbo_sigma hE h.len (fun v hv => (hO2 v hv).1) (fun v hv => (hO2 v hv).2)
    (fun s hs => (h.pts s (List.mem_of_head? hs)).2) h.ne hfit two_pos
  set t : BoState XR (MM XR (GpState E)) := { st with model := { st.model with models := ms } } with ht
  set front : List (PPoint XR) := (ea t d).map fun p => (p.1, p.2, ms.map fun m => gpSigma0 m p.1) with hfront
  have hup : updateParetoModel P f.dimIn st = .ok { t with model := { t.model with paretoModel := front } } := by
    unfold updateParetoModel
    rw [hu]
    simp only [Res.andThen, Res.bind, hP.sferes, hfd, hP.sigma]
    rfl
  have hgood : ∀ p ∈ front, GoodObjs 2 p.2.2 := by
    intro p hp
    rw [hfront, List.mem_map] at hp
    obtain ⟨q, hq, rfl⟩ := hp
    refine ⟨by simp [hfit.1], fun y hy => ?_⟩
    obtain ⟨m, hm, rfl⟩ := List.mem_map.1 hy
    obtain ⟨w, hw⟩ := (hP.finite _ _ q hq).exists_map
    rw [hw, hsg m hm w]
    rfl
  have hne : front ≠ [] := by
    rw [hfront]
    intro e
    exact (hea t).1 (List.map_eq_nil_iff.1 e)
  set s1 : BoState XR (MM XR (GpState E)) := { t with model := { t.model with paretoModel := front } } with hs1
  have hcp : callPset P 2 (fun p => p.2.2) s1 front = some (P.pset 2 s1 front) := by
    obtain ⟨p, ps, e⟩ := List.exists_cons_of_ne_nil hne
    unfold callPset
    rw [e]
    simp only [List.head?_cons]
    rw [if_pos]
    have := (hgood p (by rw [e]; simp)).1
    rw [this]
    exact one_lt_two
  obtain ⟨hperm, -, -, hpne⟩ := C57_pareto_set 2 (fun p : PPoint XR => p.2.2) front hgood _
    (hP.pset 2 _ (Or.inr ⟨rfl, rfl⟩) s1 front 2 one_lt_two hne hgood)
  have hlt : P.rand s1 % (P.pset 2 s1 front).length < (P.pset 2 s1 front).length := Nat.mod_lt _ (List.length_pos_iff.2 hpne)
  set best := (P.pset 2 s1 front)[P.rand s1 % (P.pset 2 s1 front).length]'hlt with hbest
  have hbf : best ∈ front := by
    have : best ∈ P.pset 2 s1 front := List.getElem_mem _
    rw [hperm.mem_iff] at this
    exact (List.mem_filter.1 this).1
  have hvok : PointOk d best.1 := by
    rw [hfront, List.mem_map] at hbf
    obtain ⟨q, hq, e⟩ := hbf
    rw [← e]
    exact ⟨hP.finite _ _ q hq, (hea t).2 q hq⟩
  obtain ⟨y, z, hcall, hQ⟩ := hf s1.trace best.1 hvok
  have hlog : s1.logs.length = P.bo.stats.length := h.logs
  have hgood' : ∀ (tr : List (Event XR (MM XR (GpState E)))) (lg : List (List (LogLine XR))) (ci ti : Int) (mm : MM XR (GpState E)), lg.length = P.bo.stats.length →
      GoodMu P Q d ⟨s1.samples ++ [best.1], s1.observations ++ [[XR.fin y, XR.fin z]], ci, ti, mm, lg, tr⟩ := by
    intro tr lg ci ti mm hlg
    refine ⟨by simp, by simp [hs1, ht, h.len], ?_, ?_, hlg⟩
    · intro q hq
      rcases List.mem_append.1 hq with hq | hq
      · exact h.pts q hq
      · rw [List.mem_singleton.1 hq]; exact hvok
    · intro q hq
      rcases List.mem_append.1 hq with hq | hq
      · exact h.obs q hq
      · exact ⟨y, z, List.mem_singleton.1 hq, hQ⟩
  have hmod : s1.model.models.length = 2 := hfit.1
  have hcur : s1.currentIteration = st.currentIteration := rfl
  have hpm : s1.model.paretoModel = front := rfl
  clear_value s1
  unfold nsboIteration
  rw [hup]
  simp only [Res.andThen, Res.bind]
  rw [hpm, hcp]
  simp only
  rw [List.getElem?_eq_getElem hlt, ← hbest]
  simp only [muFinish]
  clear_value best
  rw [evalAndAdd_good hcall]
  simp only [Res.andThen, Res.bind, hmod, lt_irrefl, decide_false, Bool.and_false, Bool.false_eq_true, if_false, updateStats]
  by_cases hst : P.bo.statsEnabled = true
  · simp only [hst, if_true]
    obtain ⟨lg, h1, h2⟩ := refreshStats_some (st := BoState.push { s1 with samples := s1.samples ++ [best.1], observations := s1.observations ++ [[XR.fin y, XR.fin z]], trace := s1.trace ++ [.call best.1 (.ret [XR.fin y, XR.fin z])] } (.stat s1.model)) (afun := afun) P.bo.stats s1.logs hlog (fun s hs => hstat s hs _ _)
    have h1' := h1
    simp only [BoState.push] at h1' ⊢
    rw [h1']
    exact ⟨_, rfl, hgood' _ _ _ _ _ (by rw [h2]; exact hlog), by simp only [hcur]⟩
  · simp only [hst, Bool.false_eq_true, if_false]
    exact ⟨_, rfl, hgood' _ _ _ _ _ hlog, by simp only [BoState.push, hcur]⟩

/-- **C121**: a first run of `Nsbo` with GPs and two objectives returns normally, if the initialiser gives at least one point of the right dimension, the
evolutionary algorithm at least one, and the objective returns two real numbers.  After the initial points exactly `N` more are evaluated; each is a point of
the front with the largest posterior variance given all points before it. -/
theorem C121_first_run (hE : LawfulEnv E) (P : MuParams XR (GpState E)) (ea : BoState XR (MM XR (GpState E)) → Nat → List (List XR × List XR))
    (hP : UsesNsboGp P ea) (d : Nat) (hd0 : 0 < d) (hea : ∀ s, ea s d ≠ [] ∧ ∀ p ∈ ea s d, p.1.length = d)
    (hinit : ∀ st, ∃ pts, P.bo.initPts st d = some pts ∧ pts ≠ [] ∧ ∀ x ∈ pts, PointOk d x)
    (hstat : ∀ s ∈ P.bo.stats, ∀ st afun, s st afun ≠ none) (N : Nat) (hstop : P.bo.stop = [maxIterations N])
    (f : StateFun XR (MM XR (GpState E))) (hfd : f.dimIn = d) (hf : ∀ tr x, PointOk d x → ∃ y z : ℝ, f.call tr x = .ret [XR.fin y, XR.fin z])
    (afun : List XR → XR) (ci : Int) (n : Nat) (hn : N < n) :
    ∃ st', muOptimize .nsbo P f afun true n (newMulti P ci) = .ok st' ∧ ∃ n0 : Nat, st'.samples.length = n0 + N ∧
      ∀ j x, n0 ≤ j → st'.samples[j]? = some x → ∃ (s : BoState XR (MM XR (GpState E))) (xs : List (List ℝ)) (v : List ℝ),
        s.samples = st'.samples.take j ∧ s.observations = st'.observations.take j ∧ FittedTo fixData 2 s.samples s.observations s.model.models ∧
        st'.samples.take j = xs.map (fun x => x.map XR.fin) ∧ xs ≠ [] ∧ x = v.map XR.fin ∧ (∃ y, (x, y) ∈ ea s d) ∧
        ∀ p ∈ ea s d, ∃ q : List ℝ, p.1 = q.map XR.fin ∧ objVar E d xs q ≤ objVar E d xs v := by
  have hf' : ∀ tr x, PointOk d x → ∃ y z : ℝ, f.call tr x = .ret [XR.fin y, XR.fin z] ∧ (fun _ _ => True : ℝ → ℝ → Prop) y z :=
    fun tr x hx => (hf tr x hx).imp fun y h => h.imp fun z h => ⟨h, trivial⟩
  obtain ⟨pts, hp1, hp2, hp3⟩ := hinit (initState true (newMulti P ci))
  obtain ⟨s1, h1, hg, hc⟩ := evalAll_good (P := P) hf' pts (initState true (newMulti P ci)) (Or.inl hp2) hp3 rfl
    (by intro x hx; cases hx) (by intro x hx; cases hx) (by simp [initState, BoState.push, newMulti, newBo])
  have hloop : ∀ (n k : Nat) (s : BoState XR (MM XR (GpState E))), GoodMu P (fun _ _ => True) d s → s.currentIteration = (k : Int) → k ≤ N → N < n + k →
      ∃ st, muLoop P (muBody .nsbo P f afun) afun n s = .ok st ∧ st.currentIteration = N ∧ GoodMu P (fun _ _ => True) d st := by
    intro n
    induction n with
    | zero => intro k s _ _ h1 h2; omega
    | succ n ih =>
      intro k s hs hk hkN hNk
      unfold muLoop
      rw [if_neg (by intro h0; exact hs.ne (List.length_eq_zero_iff.1 h0))]
      have hb : boStop P.bo afun s = some (decide ((N : Int) ≤ s.currentIteration), { s with trace := s.trace ++ [.asked 0 (decide ((N : Int) ≤ s.currentIteration))] }) := by
        simp only [boStop, hstop, chainCriteria, maxIterations]
        by_cases h0 : (N : Int) ≤ s.currentIteration <;> simp [h0]
      rw [hb]
      by_cases h0 : (N : Int) ≤ s.currentIteration
      · simp only [h0, decide_true]
        exact ⟨_, rfl, by simp only; omega, ⟨hs.ne, hs.len, hs.pts, hs.obs, hs.logs⟩⟩
      · simp only [h0, decide_false]
        obtain ⟨s', e1, e2, e3⟩ := nsboIteration_good hE hP hd0 hea hstat hfd hf' afun { s with trace := s.trace ++ [.asked 0 false] } ⟨hs.ne, hs.len, hs.pts, hs.obs, hs.logs⟩
        show ∃ st, (nsboIteration P f afun _).andThen _ = _ ∧ _
        rw [e1]
        exact ih (k + 1) s' e2 (by rw [e3]; simp only [hk]; push_cast; rfl) (by omega) (by omega)
  obtain ⟨st', hrun, hcur, hgd⟩ : ∃ st, muOptimize .nsbo P f afun true n (newMulti P ci) = .ok st ∧ st.currentIteration = N ∧ GoodMu P (fun _ _ => True) d st := by
    unfold muOptimize
    rw [boInit_eq, if_pos (Or.inl rfl), hfd, hp1]
    simp only
    rw [h1]
    exact hloop n 0 s1 hg (by rw [hc]; rfl) (Nat.zero_le _) (by omega)
  refine ⟨st', hrun, ?_⟩
  obtain ⟨n0, e, H⟩ := C121_most_uncertain hE P ea hP ci [] f afun true n _ st' rfl hrun 2 two_pos (fun v hv => by
    obtain ⟨y, z, rfl, -⟩ := hgd.obs v hv
    rfl) d (fun s hs => (hgd.pts s (List.mem_of_head? hs)).2)
  rw [hfd] at H
  exact ⟨n0, by rw [hcur] at e; exact_mod_cast e, H⟩

/-! ## A concrete run -/

/-- The optimizer of `exEhviGp` with an evolutionary algorithm that always returns the points 1/4, 1/2 and 1. -/
noncomputable def exNsboGp : MuParams XR (GpState exBallEnv) :=
  { exEhviGp Consts.exact with sferes := some fun _ _ => [([XR.fin (1/4)], []), ([XR.fin (1/2)], []), ([XR.fin 1], [])] }

theorem exNsboGp_uses : UsesNsboGp exNsboGp fun _ _ => [([XR.fin (1/4)], []), ([XR.fin (1/2)], []), ([XR.fin 1], [])] where
  ops := ⟨_, _, _, _, rfl⟩
  sigma := rfl
  sferes := rfl
  finite := by
    intro s n p hp
    simp only [List.mem_cons, List.not_mem_nil, or_false] at hp
    rcases hp with rfl | rfl | rfl
    · exact allFin_map [1/4]
    · exact allFin_map [1/2]
    · exact allFin_map [1]
  pset := (exEhviGp_uses Consts.exact).pset

/-- two initial points and two iterations: the run returns, and both points are the most uncertain ones -/
example : ∃ st', muOptimize .nsbo exNsboGp exEhviF (fun v => v.headD (XR.fin 0)) true 3 (newMulti exNsboGp 0) = .ok st' ∧ ∃ n0 : Nat, st'.samples.length = n0 + 2 :=
  (C121_first_run exBallEnv_lawful exNsboGp _ exNsboGp_uses 1 one_pos (fun s => ⟨by simp, by
    intro p hp
    simp only [List.mem_cons, List.not_mem_nil, or_false] at hp
    rcases hp with rfl | rfl | rfl <;> rfl⟩) (exEhviGp_parts Consts.exact).1 (exEhviGp_parts Consts.exact).2.1 2 rfl exEhviF rfl
    (fun tr x hx => by obtain ⟨y, z, h, -⟩ := (exEhviGp_parts Consts.exact).2.2 tr x hx; exact ⟨y, z, h⟩) _ 0 3 (by norm_num)).imp
    fun _ h => ⟨h.1, h.2.imp fun _ h => h.1⟩

end Limbo
