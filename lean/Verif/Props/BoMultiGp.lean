import Verif.Spec.BoMultiGp
import Verif.Lemmas.BoGp
import Verif.Props.MultiGp
import Verif.Props.Bo

/-!
**C101**: `BOptimizer` together with `model::MultiGP`.  `P` is any configuration of the optimizer whose model operations are those of a
`MultiGP` with the kernel and mean of `E` and the hyper-parameter optimizer `hp`.
-/

namespace Limbo

open MultiGp

variable {E : GpEnv} {u : Nat → Nat → Nat → ℝ × ℝ} {junkC : List (List ℝ) → List (List ℝ) → MultiGpState E → MultiJunk}
  {junkA : List ℝ → List ℝ → MultiGpState E → MultiJunk} {hp : MultiHp E} {P : BoParams XR (MultiGpState E)} {ind : Bool}

/-- the MultiGP was obtained by calls, holds `d`, and everything but perhaps the centring is up to date -/
def MultiRel (ind : Bool) (g : MultiGpState E) (d : List (List XR × List XR)) : Prop :=
  ∃ xs ys r, xs.length = ys.length ∧ d = finPairs xs ys ∧ (ind = true → r = true) ∧ MgReach E ind ⟨xs, ys, r, true, true, true, true⟩ g

theorem mgRes_ok {o : Option (MultiGpState E)} {s : MultiGpState E} (h : mgRes o = .ok s) : o = some s := by
  cases o with
  | none => cases h
  | some a => simp only [mgRes, Res.ok.injEq] at h; rw [h]

theorem mgRes_throw {o : Option (MultiGpState E)} {e : Exn} {s : MultiGpState E} (h : mgRes o = .throw e s) : False := by
  cases o <;> cases h

theorem multiGpOps_lawful (hind : ind = true → E.M.IgnoresData) : LawfulRel (multiGpOps E u junkC junkA hp) (MultiRel (E := E) ind) where
  fresh i o := ⟨[], [], true, rfl, rfl, fun _ => rfl, MgReach.newDims hind (u i o) i o⟩
  compute s v m d m' hR hl h := by
    obtain ⟨xs, ys, r, -, -, -, hr⟩ := hR
    have h := mgRes_ok h
    rw [Option.bind_eq_some_iff] at h
    obtain ⟨xs', h1, h⟩ := h
    rw [Option.bind_eq_some_iff] at h
    obtain ⟨ys', h2, h⟩ := h
    have e1 := realsL?_eq h1
    have e2 := realsL?_eq h2
    refine ⟨xs', ys', true, ?_, by rw [e1, e2, zip_finPairs], fun _ => rfl, hr.step (op := .compute xs' ys' true) trivial h⟩
    rw [e1, e2] at hl; simpa using hl
  addSample s v m d m' hR h := by
    obtain ⟨xs, ys, r, hlen, rfl, hri, hr⟩ := hR
    have h := mgRes_ok h
    rw [Option.bind_eq_some_iff] at h
    obtain ⟨x, h1, h⟩ := h
    rw [Option.bind_eq_some_iff] at h
    obtain ⟨y, h2, h⟩ := h
    refine ⟨xs ++ [x], ys ++ [y], _, by simp [hlen], by rw [finPairs_snoc hlen, reals?_eq h1, reals?_eq h2], ?_, hr.step (op := .add x y) trivial h⟩
    intro hi
    simp [hi, hri hi]
  optHp m d m' hR h := by
    obtain ⟨xs, ys, r, hlen, rfl, hri, hr⟩ := hR
    have h := mgRes_ok h
    cases hp with
    | none => cases h
    | parallel loo O J j =>
      refine ⟨xs, ys, r, hlen, rfl, hri, ?_⟩
      have h2 := hr.step (op := .hpOpt loo (O m) (J m)) (junk := j m) trivial h
      have e : (MgAbs.step ind ⟨xs, ys, r, true, true, true, true⟩ (.hpOpt loo (O m) (J m))) = ⟨xs, ys, r, true, true, true, true⟩ := by
        simp only [MgAbs.step]
        split <;> rfl
      rw [e] at h2
      exact h2
  computeThrow s v m d e m' _ h := (mgRes_throw h).elim
  addThrow s v m d e m' _ h := (mgRes_throw h).elim
  hpThrow m d e m' _ h := (mgRes_throw h).elim

theorem prior_parts (hE : LawfulEnv E) {B : MgAbs} {st : MultiGpState E} (hr : MgReach E ind B st) (hx : B.xs = []) (hpos : 0 < st.dimOut) (v : List ℝ) :
    ∃ m σ, MultiGp.mu st v = some m ∧ MultiGp.sigma st v = some σ ∧ ∀ (c : Nat) (g : GpState E.sub), st.models[c]? = some g →
      m[c]? = some (E.M.op st.mf v (fun _ => 0) c) ∧ σ[c]? = some (g.kf.op v v + g.kf.noise) := by
  obtain ⟨m, σ, hq, h⟩ := C47_empty_is_prior hE hr hx hpos v
  rw [C47_query_is_mu_sigma, Option.bind_eq_some_iff] at hq
  obtain ⟨m', h1, h2⟩ := hq
  rw [Option.map_eq_some_iff] at h2
  obtain ⟨σ', h3, h4⟩ := h2
  cases h4
  exact ⟨m, σ, h1, h3, h⟩

theorem MultiRel.holds (hE : LawfulEnv E) {g : MultiGpState E} {d : List (List XR × List XR)} (h : MultiRel ind g d) : MultiGpHolds g d := by
  obtain ⟨xs, ys, r, hlen, rfl, hri, hr⟩ := h
  have T := hr.tracks hE
  refine ⟨xs, ys, hlen, rfl, T.obs, fun hx hpos v => ?_, fun hx => ?_⟩
  · obtain ⟨m, σ, -, h2, h3⟩ := prior_parts hE hr hx hpos v
    exact ⟨σ, h2, fun c s hs => (h3 c s hs).2⟩
  · obtain ⟨din, dout, hd, hdi, hdo, hl, -⟩ := T.ne hx
    refine ⟨?_, din, dout, hd, hl, fun v => C47_sigma_is_posterior_variance hE hr rfl hd v⟩
    have h0 : 0 < g.models.length := by rw [hl]; exact hd.dout_pos
    have hg : g.models[0]? = some g.models[0] := List.getElem?_eq_getElem h0
    unfold samplesOf
    rw [List.head?_eq_getElem?, hg]
    exact congrArg some (T.samples hg)

theorem MultiRel.mean (hE : LawfulEnv E) {g : MultiGpState E} {d : List (List XR × List XR)} (h : MultiRel true g d) : MultiGpMean g d := by
  obtain ⟨xs, ys, r, hlen, rfl, hri, hr⟩ := h
  intro xs' ys' hlen' he
  obtain ⟨rfl, rfl⟩ := finPairs_inj hlen hlen' he
  refine ⟨fun hx hpos v => ?_, fun din dout hd v => ?_⟩
  · obtain ⟨m, σ, h2, -, h3⟩ := prior_parts hE hr hx hpos v
    exact ⟨m, h2, fun c s hs => (h3 c s hs).1⟩
  · exact C47_mu_is_posterior_mean hE hr (hri rfl) rfl hd v

theorem newBo_multi (hind : ind = true → E.M.IgnoresData) (c : Int) : RelT (MultiRel ind) (newBo P c (MultiGp.new E)) :=
  ⟨newBo_inv P c _, by intro pre e hp; simp [newBo] at hp, [], [], [], true, rfl, rfl, fun _ => rfl, MgReach.new hind⟩

theorem multi_events (hP : P.ops = multiGpOps E u junkC junkA hp) (hind : ind = true → E.M.IgnoresData) (c : Int)
    (ops : List (BoOp XR (MultiGpState E))) (st : BoState XR (MultiGpState E)) (h : runOps P ops (newBo P c (MultiGp.new E)) = some st)
    (pre post : List (Event XR (MultiGpState E))) (g : MultiGpState E) (it : Int) :
    (st.trace = pre ++ .acqui g it :: post → MultiRel ind g (expect pre)) ∧
    (st.trace = pre ++ .hp g :: post → MultiRel ind g (expect pre)) ∧
    (st.trace = pre ++ .stat g :: post → ∃ others newest, expect pre = others ++ [newest] ∧ MultiRel ind g others) := by
  have hL : LawfulRel P.ops (MultiRel (E := E) ind) := by rw [hP]; exact multiGpOps_lawful hind
  have hT := (runOps_inv (I := RelT (MultiRel ind)) (fun op st h => runOp_rel hL op st h) ops _ st (newBo_multi hind c) h).tr
  refine ⟨fun he => ?_, fun he => ?_, fun he => ?_⟩
  · exact (hT pre (.acqui g it) ⟨post, by rw [he]; simp⟩ : MultiRel ind g (expect pre))
  · exact (hT pre (.hp g) ⟨post, by rw [he]; simp⟩ : MultiRel ind g (expect pre))
  · obtain ⟨d, p, h1, h2⟩ := (hT pre (.stat g) ⟨post, by rw [he]; simp⟩ : ∃ d p, MultiRel ind g d ∧ expect pre = d ++ [p])
    exact ⟨d, p, h2, h1⟩

theorem multi_return (hP : P.ops = multiGpOps E u junkC junkA hp) (hind : ind = true → E.M.IgnoresData) (c : Int)
    (ops : List (BoOp XR (MultiGpState E))) (st st' : BoState XR (MultiGpState E)) (h : runOps P ops (newBo P c (MultiGp.new E)) = some st)
    (f : StateFun XR (MultiGpState E)) (afun : List XR → XR) (reset : Bool) (fuel : Nat) (ho : optimize P f afun reset fuel st = .ok st') :
    MultiRel ind st'.model (st'.samples.zip st'.observations) := by
  have hL : LawfulRel P.ops (MultiRel (E := E) ind) := by rw [hP]; exact multiGpOps_lawful hind
  have hT := runOps_inv (I := RelT (MultiRel ind)) (fun op st h => runOp_rel hL op st h) ops _ st (newBo_multi hind c) h
  have := optimize_rel hL f afun reset fuel st hT
  rw [ho] at this
  exact this.model

/-- **C101**: after any history of calls of the optimizer, at any moment at which an acquisition function was built or the
hyper-parameters were about to be optimized, the `MultiGP` held exactly the finite evaluations since the last reset, in order, and its
predicted variances were the posterior ones for every output; when statistics were written it lacked the newest evaluation only. -/
theorem C101_data_and_variances (hE : LawfulEnv E) (hP : P.ops = multiGpOps E u junkC junkA hp) (c : Int)
    (ops : List (BoOp XR (MultiGpState E))) (st : BoState XR (MultiGpState E)) (h : runOps P ops (newBo P c (MultiGp.new E)) = some st)
    (pre post : List (Event XR (MultiGpState E))) (g : MultiGpState E) (it : Int) :
    (st.trace = pre ++ .acqui g it :: post → MultiGpHolds g (expect pre)) ∧
    (st.trace = pre ++ .hp g :: post → MultiGpHolds g (expect pre)) ∧
    (st.trace = pre ++ .stat g :: post → ∃ others newest, expect pre = others ++ [newest] ∧ MultiGpHolds g others) := by
  obtain ⟨h1, h2, h3⟩ := multi_events hP (ind := false) (fun h => by cases h) c ops st h pre post g it
  exact ⟨fun he => (h1 he).holds hE, fun he => (h2 he).holds hE, fun he => let ⟨o, n, a, b⟩ := h3 he; ⟨o, n, a, b.holds hE⟩⟩

/-- **C101**: with a mean function that does not look at the observations, the mean predictions were the posterior ones as well. -/
theorem C101_mean_predictions (hE : LawfulEnv E) (hM : E.M.IgnoresData) (hP : P.ops = multiGpOps E u junkC junkA hp) (c : Int)
    (ops : List (BoOp XR (MultiGpState E))) (st : BoState XR (MultiGpState E)) (h : runOps P ops (newBo P c (MultiGp.new E)) = some st)
    (pre post : List (Event XR (MultiGpState E))) (g : MultiGpState E) (it : Int) :
    (st.trace = pre ++ .acqui g it :: post → MultiGpMean g (expect pre)) ∧
    (st.trace = pre ++ .hp g :: post → MultiGpMean g (expect pre)) ∧
    (st.trace = pre ++ .stat g :: post → ∃ others newest, expect pre = others ++ [newest] ∧ MultiGpMean g others) := by
  obtain ⟨h1, h2, h3⟩ := multi_events hP (ind := true) (fun _ => hM) c ops st h pre post g it
  exact ⟨fun he => (h1 he).mean hE, fun he => (h2 he).mean hE, fun he => let ⟨o, n, a, b⟩ := h3 he; ⟨o, n, a, b.mean hE⟩⟩

/-- **C101**: when `optimize` returns, `model()` holds exactly `samples()` and `observations()` and predicts from them. -/
theorem C101_on_return (hE : LawfulEnv E) (hP : P.ops = multiGpOps E u junkC junkA hp) (c : Int)
    (ops : List (BoOp XR (MultiGpState E))) (st st' : BoState XR (MultiGpState E)) (h : runOps P ops (newBo P c (MultiGp.new E)) = some st)
    (f : StateFun XR (MultiGpState E)) (afun : List XR → XR) (reset : Bool) (fuel : Nat) (ho : optimize P f afun reset fuel st = .ok st') :
    MultiGpHolds st'.model (st'.samples.zip st'.observations) ∧
    (E.M.IgnoresData → MultiGpMean st'.model (st'.samples.zip st'.observations)) :=
  ⟨(multi_return hP (ind := false) (fun h => by cases h) c ops st st' h f afun reset fuel ho).holds hE,
   fun hM => (multi_return hP (ind := true) (fun _ => hM) c ops st st' h f afun reset fuel ho).mean hE⟩

/-! ### `mean::Data` -/

/-- after fitting `(0, 1)`, adding `(1, 3)` gives wrong mean predictions -/
theorem data_mean_add_wrong {s1 : MultiGpState exEnvData} (M1 : MTracks exEnvData ⟨[[0]], [[1]], true, true, true, true, true⟩ s1)
    (hk1 : ∀ g, s1.models[0]? = some g → g.kf = BaseK.mk' exEnvData.KP 1 ∧ g.dimIn = 1) (j : MultiJunk) :
    ∃ s, MultiGp.addSample j s1 [1] [3] = some s ∧ ¬ MultiGpMean s (finPairs [[0], [1]] [[1], [3]]) := by
  have hE := exEnvData_lawful
  have hd0 : DataSet [[(0:ℝ)]] [[1]] 1 1 := ⟨by simp, by simp, by simp, by simp, by norm_num, by norm_num⟩
  have hd : DataSet [[(0:ℝ)], [1]] [[1], [3]] 1 1 := ⟨by simp, by simp, by simp, by simp, by norm_num, by norm_num⟩
  obtain ⟨hi1, ho1, hl1, -⟩ := M1.dims hd0
  obtain ⟨s, h2, M2, -, hi2, ho2, hl2, hk2⟩ := add_ok hE M1 j (x := [1]) (y := [3]) (by exact hd) (Or.inr ⟨hi1, ho1⟩) (ind := false) (fun h => by cases h)
  refine ⟨s, h2, fun hmean => ?_⟩
  have hmu := (hmean [[0], [1]] [[1], [3]] rfl rfl).2 1 1 hd
  have g1e : s1.models[0]? = some (s1.models[0]'(by omega)) := List.getElem?_eq_getElem (by omega)
  have g2e : s.models[0]? = some (s.models[0]'(by omega)) := List.getElem?_eq_getElem (by omega)
  generalize s1.models[0]'(by omega) = g1 at g1e
  generalize s.models[0]'(by omega) = g2 at g2e
  obtain ⟨k1, d1⟩ := hk1 g1 g1e
  obtain ⟨k2, d2, hA⟩ := hk2 0 g2 g2e
  rw [kernAt_of g1e (by rw [d1]; rfl), k1] at k2
  obtain ⟨A, T, hAx, hAm, hAk, hAy⟩ := hA rfl
  obtain ⟨-, hAa⟩ := hAk rfl
  obtain ⟨xs, ys, ak, am, aa, ai⟩ := A
  have hxs : xs = [[0], [1]] := hAx
  have hys : ys = [[0], [1]] := by
    have : ys = _ := hAy
    rw [this]
    have e1 : MultiGp.meanFn s.mf [[1]] 1 [0] 0 = 1 := by
      show (if 0 < 1 then dataMeanOf [[1]] 0 else 0) = (1:ℝ)
      simp [dataMeanOf, at']
    have e2 : MultiGp.meanFn s.mf [[1], [3]] 1 [1] 0 = 2 := by
      show (if 0 < 1 then dataMeanOf [[1], [3]] 0 else 0) = (2:ℝ)
      norm_num [dataMeanOf, at']
    show [[at' [1] 0 - MultiGp.meanFn s.mf [[1]] 1 [0] 0]] ++ [[at' [3] 0 - MultiGp.meanFn s.mf [[1], [3]] 1 [1] 0]] = _
    rw [e1, e2]
    norm_num [at']
  clear hAx hAy hA
  subst hxs hys
  have hds : DataSet [[(0:ℝ)], [1]] [[0], [1]] 1 1 := ⟨by simp, by simp, by simp, by simp, by norm_num, by norm_num⟩
  have hKOK : Gp.KOK (E := exEnvData.sub) g2.kf 1 := Gp.kok_of_reach (sub_lawful hE) (T.kreach (T.hasData hds))
  have key := same_pred_resid hKOK hds.inputs (r1 := resid (fun _ _ => 0) [[0], [1]] [[0], [1]] 0) (r2 := resid (fun _ _ => 2) [[0], [1]] [[1], [3]] 0) (by
    intro i
    obtain ⟨m, e1, -, e2⟩ := hmu [[(0:ℝ)], [1]][i]
    obtain ⟨mg, e3, e4⟩ := mu_get e1 g2e
    rw [e2 0 g2 g2e] at e4
    obtain ⟨e5, e6⟩ := Gp.mu_spec (sub_lawful hE) T (by simp) hAa hds [[(0:ℝ)], [1]][i]
    rw [e5] at e3
    have e6 := e6 0 Nat.one_pos
    rw [Option.some.inj e3] at e6
    have ms : MultiGp.meanAt s [[(0:ℝ)], [1]][i] 0 = 2 := by
      rw [MultiGp.meanAt_eq M2.obs hd.ys_ne (M2.dims hd).2.2.2]
      show (if 0 < 1 then dataMeanOf [[1], [3]] 0 else 0) = (2:ℝ)
      norm_num [dataMeanOf, at']
    have mt : MultiGp.meanFn s.mf [[(1:ℝ)], [3]] 1 = fun _ c => if c < 1 then 2 else 0 := by
      funext v c
      show (if c < 1 then dataMeanOf [[1], [3]] c else 0) = _
      by_cases hc : c < 1
      · have : c = 0 := by omega
        subst this
        norm_num [dataMeanOf, at']
      · rw [if_neg hc, if_neg hc]
    have e4 := Option.some.inj e4
    rw [e6, ms, op_fun] at e4
    have e4 : postMean (exEnvData.K.kernel g2.kf.inner) (MultiGp.meanFn s.mf [[1], [3]] 1) (g2.kf.noise + 1e-8) [[0], [1]] [[1], [3]] [[(0:ℝ)], [1]][i] 0 = _ := e4
    rw [mt] at e4
    unfold postMean at e4
    have r2 : resid (fun _ c => if c < 1 then (2:ℝ) else 0) [[0], [1]] [[1], [3]] 0 = resid (fun _ _ => 2) [[0], [1]] [[1], [3]] 0 := rfl
    have r1 : resid (Gp.meanFn (E := exEnvData.sub) g2.mf [[0], [1]] 1) [[0], [1]] [[0], [1]] 0 = resid (fun _ _ => (0:ℝ)) [[0], [1]] [[0], [1]] 0 := rfl
    have z : Gp.meanFn (E := exEnvData.sub) g2.mf [[0], [1]] 1 [[(0:ℝ)], [1]][i] 0 = 0 := rfl
    rw [r1, r2, z] at e4
    simp only [if_pos Nat.one_pos, zero_add] at e4
    have e4 := e4.symm
    rw [add_comm] at e4
    exact add_left_cancel e4) ⟨0, by simp⟩
  have hk0 : exEnvData.sub.K.kernel g2.kf.inner [0] [0] = 1 := by rw [k2]; exact exp_self _
  unfold dotProduct kvec resid at key
  rw [sum_two, sum_two] at key
  simp [at', hk0] at key
  norm_num at key

/-- a configuration with one initial point and one iteration -/
noncomputable def exMultiP (E : GpEnv) : BoParams XR (MultiGpState E) where
  bounded := true
  statsEnabled := false
  hpPeriod := -1
  ops := multiGpOps E (fun _ _ _ => (1, 2)) (fun _ _ _ => ⟨fun _ _ _ => 7, fun _ => (3, 4)⟩) (fun _ _ _ => ⟨fun _ _ _ => 7, fun _ => (3, 4)⟩) .none
  initPts := fun _ _ => some [[XR.fin 0]]
  acqui := fun _ _ _ => fun _ _ => (XR.fin 0, none)
  acquiOpt := fun _ _ _ _ => .point [XR.fin 1]
  startPt := fun _ _ => [XR.fin 0]
  stop := [maxIterations 1]
  stats := []

/-- the first value is 1, the others are 3 -/
noncomputable def exMultiF (E : GpEnv) : StateFun XR (MultiGpState E) where
  dimIn := 1
  dimOut := 1
  call := fun tr _ => if (callPts tr).length = 0 then .ret [XR.fin 1] else .ret [XR.fin 3]

/-- what happens in this run -/
theorem exMulti_run {j : MultiJunk} (hj : j = ⟨fun _ _ _ => 7, fun _ => (3, 4)⟩) {s1 s : MultiGpState E}
    (h1 : MultiGp.compute j (MultiGp.new E) [[0]] [[1]] true = some s1) (h2 : MultiGp.addSample j s1 [1] [3] = some s) :
    ∃ st', optimize (exMultiP E) (exMultiF E) (fun v => v.headD (XR.fin 0)) true 5 (newBo (exMultiP E) 0 (MultiGp.new E)) = .ok st' ∧
      st'.samples = [[XR.fin 0], [XR.fin 1]] ∧ st'.observations = [[XR.fin 1], [XR.fin 3]] ∧ st'.model = s ∧
      ∃ pre post, st'.trace = pre ++ .acqui s1 0 :: post ∧ expect pre = [([XR.fin 0], [XR.fin 1])] := by
  have c1 : (exMultiP E).ops.compute [[XR.fin 0]] [[XR.fin 1]] (MultiGp.new E) = .ok s1 := by
    subst hj
    show mgRes (MultiGp.compute _ (MultiGp.new E) [[0]] [[1]] true) = _
    rw [h1]; rfl
  have c2 : (exMultiP E).ops.addSample [XR.fin 1] [XR.fin 3] s1 = .ok s := by
    subst hj
    show mgRes (MultiGp.addSample _ s1 [1] [3]) = _
    rw [h2]; rfl
  have hn : ∀ r : ℝ, isNanOrInf [XR.fin r] = false := fun _ => rfl
  have e1 : (exMultiP E).initPts = fun _ _ => some [[XR.fin 0]] := rfl
  have e2 : (exMultiP E).acquiOpt = fun _ _ _ _ => .point [XR.fin 1] := rfl
  have e3 : (exMultiP E).stop = [maxIterations 1] := rfl
  have e4 : (exMultiP E).statsEnabled = false := rfl
  have e5 : (exMultiP E).hpPeriod = -1 := rfl
  have e6 : (exMultiF E).call = fun tr _ => if (callPts tr).length = 0 then .ret [XR.fin 1] else .ret [XR.fin 3] := rfl
  unfold optimize boInit
  simp [e1, evalAll, evalAndAdd, e6, newBo, BoState.push, callPts, addNewSample, hn, Res.andThen, boModelInit, c1, withModel, Res.bind, boLoop,
    boStop, chainCriteria, e3, maxIterations, boIteration, e2, updateStats, e4, boModelAdd, c2, boHp, e5]
  refine ⟨[.start true, .call [XR.fin 0] (.ret [XR.fin 1]), .asked 0 false], ⟨_, rfl⟩, ?_⟩
  rfl

/-- **C101, disagreement**: with `mean::Data`, `optimize` returns with a model whose mean predictions are not the posterior given
`samples()` and `observations()`. -/
theorem C101_data_mean_wrong : exEnvData.M = dataMean ∧ LawfulEnv exEnvData ∧ ∃ st',
    optimize (exMultiP exEnvData) (exMultiF exEnvData) (fun v => v.headD (XR.fin 0)) true 5 (newBo (exMultiP exEnvData) 0 (MultiGp.new exEnvData)) = .ok st' ∧
    st'.samples.zip st'.observations = [([XR.fin 0], [XR.fin 1]), ([XR.fin 1], [XR.fin 3])] ∧
    ¬ MultiGpMean st'.model (st'.samples.zip st'.observations) := by
  have hE := exEnvData_lawful
  refine ⟨rfl, hE, ?_⟩
  have hd : DataSet [[(0:ℝ)]] [[1]] 1 1 := ⟨by simp, by simp, by simp, by simp, by norm_num, by norm_num⟩
  obtain ⟨s1, h1, M1, -, -, -, hl, hk, -⟩ := compute_ok hE (mtrack_new (E := exEnvData)) ⟨fun _ _ _ => 7, fun _ => (3, 4)⟩ hd true false
  obtain ⟨s, h2, h3⟩ := data_mean_add_wrong M1 (fun g hg => by
    obtain ⟨a, b⟩ := hk (Or.inr rfl) 0 g hg
    rw [kernAt_nil rfl] at a
    exact ⟨a, b⟩) ⟨fun _ _ _ => 7, fun _ => (3, 4)⟩
  obtain ⟨st', a, b, c, d, -⟩ := exMulti_run rfl h1 h2
  refine ⟨st', a, by rw [b, c]; rfl, ?_⟩
  rw [b, c, d]
  exact h3

/-- the hypotheses are met: a run with `mean::Constant`, and the acquisition function built in it -/
example : exEnvConst.M.IgnoresData ∧ LawfulEnv exEnvConst ∧ ∃ st g pre post,
    runOps (exMultiP exEnvConst) [.optimize (exMultiF exEnvConst) (fun v => v.headD (XR.fin 0)) true 5] (newBo (exMultiP exEnvConst) 0 (MultiGp.new exEnvConst)) = some st ∧
    st.trace = pre ++ .acqui g 0 :: post ∧ expect pre = [([XR.fin 0], [XR.fin 1])] ∧ MultiGpHolds g (expect pre) ∧ MultiGpMean g (expect pre) := by
  have hE := exEnvConst_lawful
  have hd : DataSet [[(0:ℝ)]] [[1]] 1 1 := ⟨by simp, by simp, by simp, by simp, by norm_num, by norm_num⟩
  have hd2 : DataSet ([[(0:ℝ)]] ++ [[1]]) ([[1]] ++ [[3]]) 1 1 := ⟨by simp, by simp, by simp, by simp, by norm_num, by norm_num⟩
  obtain ⟨s1, h1, M1, -, hi, ho, -⟩ := compute_ok hE (mtrack_new (E := exEnvConst)) ⟨fun _ _ _ => 7, fun _ => (3, 4)⟩ hd true false
  obtain ⟨s, h2, -⟩ := add_ok hE M1 ⟨fun _ _ _ => 7, fun _ => (3, 4)⟩ (x := [1]) (y := [3]) hd2 (Or.inr ⟨hi, ho⟩) (ind := false) (fun h => by cases h)
  obtain ⟨st, a, b, c, d, pre, post, e, f⟩ := exMulti_run rfl h1 h2
  have hrun : runOps (exMultiP exEnvConst) [.optimize (exMultiF exEnvConst) (fun v => v.headD (XR.fin 0)) true 5] (newBo (exMultiP exEnvConst) 0 (MultiGp.new exEnvConst)) = some st := by
    simp only [runOps, runOp, a]
  exact ⟨ignores_const 0, hE, st, s1, pre, post, hrun, e, f, (C101_data_and_variances hE rfl 0 _ st hrun pre post s1 0).1 e,
    (C101_mean_predictions hE (ignores_const 0) rfl 0 _ st hrun pre post s1 0).1 e⟩

end Limbo
