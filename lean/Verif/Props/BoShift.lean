import Verif.Lemmas.BoShift
import Verif.Props.BoSafe
import Verif.Props.Confidence

/-!
**C110**: adding a constant to the objective does not change the search.

The mean function is `mean::Data` (the default of limbo), the hyper-parameters are not optimized during the run.
-/

namespace Limbo

open Gp Scalar

variable {E : GpEnv} {P : BoParams XR (GpState E)} {u : Nat → Nat → ℝ × ℝ} {junkC : List (List ℝ) → List (List ℝ) → GpState E → Nat → Nat → ℝ}
  {junkA : List ℝ → List ℝ → GpState E → Nat → Nat → ℝ} {hp : HpFunctor E} {t : Nat → ℝ} {afun : List XR → XR} {F : List ℝ → ℝ} {c : ℝ}

theorem gpOps_twin : TwinModel (gpOps E u junkC junkA hp) FixRel where
  fresh := (gpOps_fixed u junkC junkA).fresh
  compute := (gpOps_fixed u junkC junkA).compute
  addSample := (gpOps_fixed u junkC junkA).addSample
  computeThrow s v m e m' h := by
    simp only [gpOps, boGpCompute, gpRes] at h
    split at h <;> cases h
  addThrow s v m e m' h := by
    simp only [gpOps, boGpAdd, gpRes] at h
    split at h <;> cases h

theorem agg_shift (hF : ∀ l, afun (l.map XR.fin) = XR.fin (F l)) (hc : ∀ v, v ≠ [] → afun (shiftX t v) = afun v + XR.fin c) (l : List ℝ) (hl : l ≠ []) :
    F (shiftR t l) = F l + c := by
  have := hc (l.map XR.fin) (by simpa using hl)
  rw [shiftX_map, hF, hF] at this
  exact Xt.fin.inj this

theorem maxElementFrom_shift (c : ℝ) : ∀ (l : List XR) (bi : Nat) (b : XR) (i : Nat),
    maxElementFrom bi (b + XR.fin c) i (l.map (· + XR.fin c)) = maxElementFrom bi b i l
  | [], _, _, _ => rfl
  | x :: xs, bi, b, i => by
    simp only [List.map_cons, maxElementFrom, XR.lt_shift]
    split
    · exact maxElementFrom_shift c xs _ _ _
    · exact maxElementFrom_shift c xs _ _ _

theorem best_shift {q q' : BoState XR (GpState E)} (h : SameSearch t q q') (hc : ∀ v, v ≠ [] → afun (shiftX t v) = afun v + XR.fin c)
    (hne : ∀ o ∈ q.observations, o ≠ []) :
    bestSample afun q' = bestSample afun q ∧ bestObservation afun q' = (bestObservation afun q).map (shiftX t) := by
  have e : q'.observations.map afun = (q.observations.map afun).map (· + XR.fin c) := by
    rw [h.observations, List.map_map, List.map_map]
    exact List.map_congr_left fun o ho => hc o (hne o ho)
  have m : maxElement (q'.observations.map afun) = maxElement (q.observations.map afun) := by
    rw [e]
    cases q.observations.map afun with
    | nil => rfl
    | cons x xs => exact maxElementFrom_shift c xs 0 x 1
  unfold bestSample bestObservation
  rw [m, h.samples, h.observations, List.getElem?_map]
  exact ⟨rfl, rfl⟩

/-- the predictions at the head of the loop -/
theorem twin_predictions (hE : LawfulEnv E) (hM : E.M = dataMean) (hF : ∀ l, afun (l.map XR.fin) = XR.fin (F l))
    (hc : ∀ v, v ≠ [] → afun (shiftX t v) = afun v + XR.fin c) {q q' : BoState XR (GpState E)} (h : TwinHead t FixRel q q') :
    q'.model = q.model ∨ (q'.model.samples = q.model.samples ∧ q'.model.dimIn = q.model.dimIn ∧ ∃ (mean : List ℝ → List ℝ) (var : List ℝ → ℝ),
      Predicts q.model mean var ∧ Predicts q'.model (fun v => shiftR t (mean v)) var ∧ ∀ v, F (shiftR t (mean v)) = F (mean v) + c) := by
  by_cases hs : q.samples = []
  · exact Or.inl (h.empty hs)
  · refine Or.inr ?_
    have h' := h.model'
    rw [h.same.samples, h.same.observations] at h'
    obtain ⟨h1, h2, mean, var, h3, h4, h5⟩ := gp_shift hE hM h.len hs h.model h'
    exact ⟨h1, h2, mean, var, h3, h4, fun v => agg_shift hF hc _ (h5 v)⟩

theorem twin_start (P : BoParams XR (GpState E)) (n : Int) (u0 : ℝ × ℝ) : TwinAny t FixRel (newBo P n (Gp.new E u0)) (newBo P n (Gp.new E u0)) :=
  ⟨⟨rfl, rfl, rfl, rfl, rfl⟩, rfl, ⟨[], ⟨[], [], rfl, rfl, GpReach.new u0⟩, Or.inl rfl, Or.inl rfl⟩, ⟨[], ⟨[], [], rfl, rfl, GpReach.new u0⟩, Or.inl rfl, Or.inl rfl⟩⟩

/-- **C110**, expected improvement: two optimizers that get the same calls, one with the objective `f` and one with `f + t` (user-supplied observations
are shifted too), visit the same points in the same order; their observations differ by `t`; and they report the same best point.  The objective may be
noisy or throw.  The aggregator must turn the shift into a constant (`FirstElem` does); the inner optimizer, the initialiser and the stopping criteria must
not look at the values of the observations (no criterion of limbo except `MaxPredictedValue` does). -/
theorem C110_ei (hE : LawfulEnv E) (hM : E.M = dataMean) (hP : P.ops = gpOps E u junkC junkA hp) (hh : P.hpPeriod ≤ 0) (jitter w : ℝ)
    (hA : P.acqui = eiObj jitter w) (hF : ∀ l, afun (l.map XR.fin) = XR.fin (F l)) (hc : ∀ v, v ≠ [] → afun (shiftX t v) = afun v + XR.fin c)
    (hb : BlindParts t afun P) (ho : BlindOpt t P.acquiOpt) (n : Int) (u0 : ℝ × ℝ) {ops ops' : List (BoOp XR (GpState E))}
    (hops : List.Forall₂ (ShiftedOp t afun) ops ops') {st st' : BoState XR (GpState E)} (h : runOps P ops (newBo P n (Gp.new E u0)) = some st)
    (h' : runOps P ops' (newBo P n (Gp.new E u0)) = some st') :
    SameSearch t st st' ∧ ((∀ o ∈ st.observations, o ≠ []) → bestSample afun st' = bestSample afun st ∧
      bestObservation afun st' = (bestObservation afun st).map (shiftX t)) := by
  have hi : TwinInner t afun P FixRel := by
    intro q q' hq d
    have hs := hq.same.push (e := .acqui q.model q.currentIteration) (e' := .acqui q'.model q'.currentIteration) (by simp) (by simp)
    rw [hb.start _ _ d hs]
    have : (fun x g => P.acqui q'.model q'.currentIteration afun x g) = fun x g => P.acqui q.model q.currentIteration afun x g := by
      rw [hq.same.cur, hA]
      funext x g
      rcases twin_predictions hE hM hF hc hq with e | ⟨h1, -, mean, var, h3, h4, h5⟩
      · rw [e]
      · exact ei_shift h3 h4 hF h5 h1 jitter w _ x g
    rw [this]
    exact ho _ _ hs _ _ _
  have := (twin_runOps (by rw [hP]; exact gpOps_twin) hh hb hi hops (twin_start P n u0) h h').same
  exact ⟨this, best_shift this hc⟩

/-- **C110**, upper confidence bounds: the same for `UCB` and `GP_UCB`, whose values are shifted by the same constant everywhere; the inner optimizer must
choose the same point for objectives that differ by a constant. -/
theorem C110_ucb (hE : LawfulEnv E) (hM : E.M = dataMean) (hP : P.ops = gpOps E u junkC junkA hp) (hh : P.hpPeriod ≤ 0)
    (hA : (∃ alpha, P.acqui = ucbObj alpha) ∨ ∃ delta, P.acqui = gpUcbObj delta) (hF : ∀ l, afun (l.map XR.fin) = XR.fin (F l))
    (hc : ∀ v, v ≠ [] → afun (shiftX t v) = afun v + XR.fin c) (hb : BlindParts t afun P) (ho : ConstBlindOpt t P.acquiOpt) (n : Int) (u0 : ℝ × ℝ)
    {ops ops' : List (BoOp XR (GpState E))} (hops : List.Forall₂ (ShiftedOp t afun) ops ops') {st st' : BoState XR (GpState E)}
    (h : runOps P ops (newBo P n (Gp.new E u0)) = some st) (h' : runOps P ops' (newBo P n (Gp.new E u0)) = some st') :
    SameSearch t st st' ∧ ((∀ o ∈ st.observations, o ≠ []) → bestSample afun st' = bestSample afun st ∧
      bestObservation afun st' = (bestObservation afun st).map (shiftX t)) := by
  have hi : TwinInner t afun P FixRel := by
    intro q q' hq d
    have hs := hq.same.push (e := .acqui q.model q.currentIteration) (e' := .acqui q'.model q'.currentIteration) (by simp) (by simp)
    rw [hb.start _ _ d hs, hq.same.cur]
    rcases twin_predictions hE hM hF hc hq with e | ⟨-, h2, mean, var, h3, h4, h5⟩
    · refine ho _ _ (hq.same.cur ▸ hs) _ _ 0 (fun x g => ?_) _ _
      rw [e, XR.shift_zero]; exact ⟨rfl, rfl⟩
    · refine ho _ _ (hq.same.cur ▸ hs) _ _ c (fun x g => ?_) _ _
      rcases hA with ⟨alpha, hA⟩ | ⟨delta, hA⟩
      · rw [hA]; exact ucb_shift h3 h4 hF h5 alpha _ x g
      · rw [hA]; exact gpUcb_shift h3 h4 hF h5 h2 delta _ x g
  have := (twin_runOps (by rw [hP]; exact gpOps_twin) hh hb hi hops (twin_start P n u0) h h').same
  exact ⟨this, best_shift this hc⟩

/-- **C110**, `GridSearch` chooses the same point for objectives that differ by a constant (if both calls return a point), so it can be used in
`C110_ei` and `C110_ucb`. -/
theorem C110_grid_search (t : Nat → ℝ) (bins fuel : Nat) :
    BlindOpt t (fun (_ : BoState XR (GpState E)) f x b => (gridSearch bins fuel).toRes f x b) ∧
    ConstBlindOpt t (fun (_ : BoState XR (GpState E)) f x b => (gridSearch bins fuel).toRes f x b) := by
  constructor
  · intro q q' _ f x b
    simp only [Optz.toRes]
    split <;> simp [SameOpt]
  · intro q q' _ f f' c hf x b
    simp only [Optz.toRes]
    cases h : gridSearch bins fuel f x b with
    | none => simp [SameOpt]
    | some p =>
      cases h' : gridSearch bins fuel f' x b with
      | none => simp [SameOpt]
      | some p' => exact gridSearch_shift hf bins fuel x b h h'

/-! The optimizer of `Props/BoAcqui.lean` (EI, `GridSearch`, `mean::Data`, two initial points, three iterations), without hyper-parameter optimization; one
observation given by hand, then a run on an objective that returns NaN once (so that the run throws), then another run; and the same with 5 added
everywhere.  Both histories run to their end. -/

noncomputable def exShiftP : BoParams XR (GpState exEnv) := { exEiP with hpPeriod := -1 }

noncomputable def exShiftF (s : ℝ) : StateFun XR (GpState exEnv) where
  dimIn := 2
  dimOut := 1
  call := fun tr x => shiftRes (fun _ => s) (exGpF.call tr x)

noncomputable def exShiftOps (s : ℝ) : List (BoOp XR (GpState exEnv)) :=
  [.addNewSample [XR.fin (1/4), XR.fin (1/3)] [XR.fin (2 + s)], .optimize (exShiftF s) (fun v => v.headD (XR.fin 0)) false 10,
    .optimize (exShiftF s) (fun v => v.headD (XR.fin 0)) false 12]

theorem exShiftP_ok : ComponentsOk exShiftP exHp 2 1 :=
  { exEiP_ok with hp := fun h => absurd h (by show ¬ (0 : Int) < -1; norm_num) }

theorem exShiftF_ok (s : ℝ) : ObjectiveOk 2 1 (exShiftF s) := by
  refine ⟨rfl, fun tr x v hv => ?_⟩
  simp only [exShiftF, exGpF] at hv
  split at hv <;> simp only [shiftRes, CallRes.ret.injEq] at hv <;> rw [← hv] <;> rfl

theorem exShiftOps_ok (s : ℝ) : ∀ o ∈ exShiftOps s, BoOpOk 2 1 o := by
  intro o ho
  simp only [exShiftOps, List.mem_cons, List.not_mem_nil, or_false] at ho
  rcases ho with rfl | rfl | rfl
  · refine ⟨⟨?_, rfl⟩, rfl⟩
    intro y hy
    simp only [List.mem_cons, List.not_mem_nil, or_false] at hy
    rcases hy with rfl | rfl
    · exact ⟨_, rfl⟩
    · exact ⟨_, rfl⟩
  · exact exShiftF_ok s
  · exact exShiftF_ok s

theorem exShiftOps_fuel (s : ℝ) : ∀ f afun reset fuel, BoOp.optimize f afun reset fuel ∈ exShiftOps s → (3 : Int) + 1 < fuel ∧ 0 < fuel := by
  intro f afun reset fuel hm
  simp only [exShiftOps, List.mem_cons, List.not_mem_nil, or_false, reduceCtorEq, false_or, BoOp.optimize.injEq] at hm
  rcases hm with hm | hm <;> rw [hm.2.2.2] <;> norm_num

theorem exShiftOps_run (s : ℝ) : ∃ st, runOps exShiftP (exShiftOps s) (newBo exShiftP 0 (Gp.new exEnv (0, 0))) = some st :=
  C91_every_history_runs exEnv_lawful rfl exShiftP_ok 3 (List.mem_singleton.2 rfl) 0 (0, 0) (exShiftOps s) (exShiftOps_ok s) (exShiftOps_fuel s)

theorem exShift_parts (t : Nat → ℝ) (afun : List XR → XR) : BlindParts t afun exShiftP where
  init _ _ _ _ := rfl
  start _ _ _ _ := rfl
  stop c hc q q' h := by
    rw [List.mem_singleton.1 hc]
    simp only [maxIterations, h.cur]

theorem exShift_fun : ShiftedFun (fun _ => 5) (exShiftF 0) (exShiftF 5) where
  dimIn := rfl
  dimOut := rfl
  call tr tr' x h := by
    simp only [exShiftF, exGpF, h]
    split
    · rfl
    · simp only [shiftRes, shiftX, List.mapIdx_cons, List.mapIdx_nil, XR.shift_zero]

theorem exShift_head (v : List XR) (hv : v ≠ []) : (shiftX (fun _ => 5) v).headD (XR.fin 0) = v.headD (XR.fin 0) + XR.fin 5 := by
  cases v with
  | nil => exact absurd rfl hv
  | cons a l => simp [shiftX]

theorem exShiftOps_shifted : List.Forall₂ (ShiftedOp (fun _ => 5) fun v => v.headD (XR.fin 0)) (exShiftOps 0) (exShiftOps 5) := by
  refine .cons ⟨rfl, ?_⟩ (.cons ⟨exShift_fun, rfl, rfl, rfl, rfl⟩ (.cons ⟨exShift_fun, rfl, rfl, rfl, rfl⟩ .nil))
  show [XR.fin (2 + 5)] = shiftX (fun _ => 5) [XR.fin (2 + 0)]
  simp only [shiftX, List.mapIdx_cons, List.mapIdx_nil]
  show [Xt.fin _] = [Xt.fin _]
  norm_num

example : ∃ st st', runOps exShiftP (exShiftOps 0) (newBo exShiftP 0 (Gp.new exEnv (0, 0))) = some st ∧
    runOps exShiftP (exShiftOps 5) (newBo exShiftP 0 (Gp.new exEnv (0, 0))) = some st' ∧ SameSearch (fun _ => 5) st st' := by
  obtain ⟨st, h⟩ := exShiftOps_run 0
  obtain ⟨st', h'⟩ := exShiftOps_run 5
  refine ⟨st, st', h, h', ?_⟩
  refine (C110_ei (P := exShiftP) (t := fun _ => 5) (afun := fun v => v.headD (XR.fin 0)) (F := fun l => l.headD 0) (c := 5) exEnv_lawful rfl rfl
    (by show (-1 : Int) ≤ 0; norm_num) 0 7 rfl (fun l => by cases l <;> rfl) exShift_head (exShift_parts _ _) (C110_grid_search _ 4 6).1 0 (0, 0) exShiftOps_shifted h h').1

/-! The same with `UCB` and an inner optimizer that compares its starting point with the corner (1, …, 1). -/

noncomputable def exShiftU : BoParams XR (GpState exEnv) :=
  { exShiftP with
    acqui := ucbObj 1
    acquiOpt := fun _ f x _ => .point (if lt (f x false).1 (f (x.map fun _ => XR.fin 1) false).1 then x.map fun _ => XR.fin 1 else x) }

theorem exShiftU_ok : ComponentsOk exShiftU exHp 2 1 :=
  { exShiftP_ok with
    inner := fun st afun _ => by
      refine Or.inl ⟨_, rfl, ?_⟩
      show PointOk 2 (if _ then (List.replicate 2 (XR.fin (1/2))).map (fun _ => XR.fin 1) else List.replicate 2 (XR.fin (1/2)))
      split
      · exact ⟨fun y hy => by
          rw [List.mem_map] at hy
          obtain ⟨_, -, rfl⟩ := hy
          exact ⟨1, rfl⟩, rfl⟩
      · exact ⟨fun y hy => ⟨1/2, (List.mem_replicate.1 hy).2⟩, rfl⟩ }

theorem exShiftU_run (s : ℝ) : ∃ st, runOps exShiftU (exShiftOps s) (newBo exShiftU 0 (Gp.new exEnv (0, 0))) = some st :=
  C91_every_history_runs exEnv_lawful rfl exShiftU_ok 3 (List.mem_singleton.2 rfl) 0 (0, 0) (exShiftOps s) (exShiftOps_ok s) (exShiftOps_fuel s)

example : ∃ st st', runOps exShiftU (exShiftOps 0) (newBo exShiftU 0 (Gp.new exEnv (0, 0))) = some st ∧
    runOps exShiftU (exShiftOps 5) (newBo exShiftU 0 (Gp.new exEnv (0, 0))) = some st' ∧ SameSearch (fun _ => 5) st st' := by
  obtain ⟨st, h⟩ := exShiftU_run 0
  obtain ⟨st', h'⟩ := exShiftU_run 5
  refine ⟨st, st', h, h', ?_⟩
  refine (C110_ucb (P := exShiftU) (t := fun _ => 5) (afun := fun v => v.headD (XR.fin 0)) (F := fun l => l.headD 0) (c := 5) exEnv_lawful rfl rfl
    (by show (-1 : Int) ≤ 0; norm_num) (Or.inl ⟨1, rfl⟩) (fun l => by cases l <;> rfl) exShift_head ⟨fun _ _ _ _ => rfl, fun _ _ _ _ => rfl, ?_⟩ ?_ 0 (0, 0)
    exShiftOps_shifted h h').1
  · exact (exShift_parts _ _).stop
  · intro q q' _ f f' c hf x b
    show (if _ then _ else _) = _
    simp only [(hf _ _).1, XR.lt_shift]

/-! Without `mean::Data` the claim is false. -/

theorem postMean_one (k : List ℝ → List ℝ → ℝ) (m : List ℝ → Nat → ℝ) (s : ℝ) (x v : List ℝ) (y : ℝ) :
    postMean k m s [x] [[y]] v 0 = m v 0 + k x v * ((y - m x 0) / (k x x + s)) := by
  haveI : Unique (Fin [x].length) := inferInstanceAs (Unique (Fin 1))
  have h : (gramM k s [x])⁻¹ = Matrix.diagonal fun i => Ring.inverse (gramM k s [x] i i) := Matrix.inv_subsingleton _
  unfold postMean
  rw [h]
  simp only [dotProduct, Matrix.mulVec_diagonal, Fintype.sum_unique, kvec, resid, gramM, Matrix.of_apply, if_true, Ring.inverse_eq_inv']
  generalize (default : Fin [x].length) = i
  obtain ⟨i, hi⟩ := i
  have : i = 0 := by simpa using hi
  subst this
  simp [at', div_eq_inv_mul]

theorem exNull_gp (y : ℝ) : ∃ g : GpState exBallEnv, GpFits g [([XR.fin 0], [XR.fin y])] ∧ ∃ var, Predicts g (fun v =>
    [(BaseK.mk' exBallEnv.KP 1 : BaseK exBallEnv.K).op [0] v * (y / (1 + 0.01 + 1e-8))]) var := by
  have hd : DataSet [[0]] [[y]] 1 1 := ⟨by simp, by simp, by simp, by simp, by norm_num, by norm_num⟩
  obtain ⟨st, h, _⟩ := track_compute exBallEnv_lawful (fun _ _ => 7) (track_new (E := exBallEnv) (0, 0)) hd true
  have hk : st.kf = BaseK.mk' exBallEnv.KP 1 := (compute_functors h).1.1.trans ((adaptDims_dims _ _ _).2.2.2.1 (by show (-1 : Int) ≠ 1; norm_num))
  have hr := (GpReach.new (E := exBallEnv) (0, 0)).step (op := .compute [[0]] [[y]] true) (junk := fun _ _ => 7) trivial h
  have hfit : GpFits st [([XR.fin 0], [XR.fin y])] := GpRel.fits exBallEnv_lawful ⟨[[0]], [[y]], rfl, rfl, hr⟩
  refine ⟨st, hfit, ?_⟩
  have hmu := fun v => C27_mu_is_posterior_mean exBallEnv_lawful hr (by simp [GpAbs.step]) rfl (by exact hd) v
  have hsg := fun v => C27_sigma_is_posterior_variance exBallEnv_lawful hr (by simp [GpAbs.step]) rfl v
  choose m hm1 hm2 using hmu
  obtain ⟨din, dout, hh⟩ := (hr.tracks exBallEnv_lawful).ne (by simp [GpAbs.step])
  have hdo : dout = 1 := (hh.data.outputs [y] (by simp [GpAbs.step])).symm
  refine ⟨_, fun v => ⟨m v, by rw [C28_query_is_mu_sigma, hm1 v, hsg v]; rfl, ?_⟩⟩
  rw [hh.dimOut, hdo]
  show _ = [m v 0]
  rw [hm2 v 0 one_pos, hk]
  have h1 : (BaseK.mk' exBallEnv.KP 1 : BaseK exBallEnv.K).op [0] [0] = 1 := by
    rw [op_fun]
    show (expKernel 1 1).kernel (IsoSt.mk' 1 1) _ _ = 1
    simp [expKernel, IsoSt.mk', sqDist_self]
  have hn : (BaseK.mk' exBallEnv.KP 1 : BaseK exBallEnv.K).noise = 0.01 := rfl
  show [_] = [postMean _ (meanFn st.mf [[y]] 1) _ [[0]] [[y]] v 0]
  rw [postMean_one, h1, hn]
  have h2 : ∀ x, meanFn st.mf [[y]] 1 x 0 = 0 := fun _ => rfl
  rw [h2, h2, zero_add, sub_zero]
  simp only [add_assoc]

/-- **C110** needs `mean::Data`: with the prior mean zero, one observation at 0 and `alpha = 0`, the next point on the grid {0, 1} is 0 if the observed value is 1,
but 1 if the observed value is -1 (the same objective minus 2). -/
theorem C110_needs_data_mean : ∃ g g' : GpState exBallEnv, GpFits g [([XR.fin 0], [XR.fin 1])] ∧ GpFits g' [([XR.fin 0], [XR.fin (-1)])] ∧
    gridSearch 1 3 (ucbObj 0 g 0 fun v => v.headD (XR.fin 0)) [XR.fin (1 / 2)] true = some [XR.fin 0] ∧
    gridSearch 1 3 (ucbObj 0 g' 0 fun v => v.headD (XR.fin 0)) [XR.fin (1 / 2)] true = some [XR.fin 1] := by
  obtain ⟨g, h1, var, h2⟩ := exNull_gp 1
  obtain ⟨g', h1', var', h2'⟩ := exNull_gp (-1)
  have hF : ∀ l : List ℝ, (l.map XR.fin).headD (XR.fin 0) = XR.fin (l.headD 0) := fun l => by cases l <;> rfl
  have k0 : (BaseK.mk' exBallEnv.KP 1 : BaseK exBallEnv.K).op [0] [0] = 1 := by rw [op_fun]; exact exp_self _
  obtain ⟨k, hk, k1⟩ : ∃ k, (BaseK.mk' exBallEnv.KP 1 : BaseK exBallEnv.K).op [0] [1] = k ∧ 0 < k ∧ k < 1 := by
    refine ⟨_, rfl, ?_⟩
    rw [op_fun]
    show 0 < (expKernel 1 1).kernel (IsoSt.mk' 1 1) _ _ ∧ (expKernel 1 1).kernel (IsoSt.mk' 1 1) _ _ < 1
    refine ⟨?_, ?_⟩ <;> simp only [expKernel, IsoSt.mk', sqDist, at'] <;> norm_num
    exact Real.exp_pos _
  have val : ∀ {y : ℝ} {g : GpState exBallEnv} {var : List ℝ → ℝ}, Predicts g (fun v =>
      [(BaseK.mk' exBallEnv.KP 1 : BaseK exBallEnv.K).op [0] v * (y / (1 + 0.01 + 1e-8))]) var → ∀ x : ℝ,
      (ucbObj 0 g 0 (fun v => v.headD (XR.fin 0)) [XR.fin x] false).1 =
        XR.fin ((BaseK.mk' exBallEnv.KP 1 : BaseK exBallEnv.K).op [0] [x] * (y / (1 + 0.01 + 1e-8))) := by
    intro y g var hp x
    unfold ucbObj
    have : reals? [XR.fin x] = some [x] := rfl
    rw [realAgg_eq hF, this]
    simp [Acqui.ucb, hp.view]
  have big : ∀ {y : ℝ}, -2 < y → lt (negDblMax : XR) (XR.fin y) = true := by
    intro y hy
    show decide _ = true
    rw [decide_eq_true_eq]
    refine lt_of_lt_of_le ?_ hy.le
    set_option exponentiation.threshold 2000 in norm_num
  have ax : regularAxis 1 = [XR.fin 0, XR.fin 1] := by simp [regularAxis, List.range_succ]
  have run : ∀ (f : ObjFn XR), gridSearch 1 3 f [XR.fin (1 / 2)] true =
      (gsFold f (fun x => some (some [x], [])) [XR.fin 0, XR.fin 1] negDblMax none []).bind Prod.fst := by
    intro f
    unfold gridSearch gridSearchRun
    rw [gridSearchAxis_exact 1 3 (by norm_num) (by norm_num), ax]
    simp only [if_true, List.length_singleton, gsInner, List.map_cons, List.map_nil, Nat.lt_one_iff, Nat.sub_self, List.set_cons_zero]
    cases gsFold f (fun x => some (some [x], [])) [XR.fin 0, XR.fin 1] negDblMax none [] <;> rfl
  refine ⟨g, g', h1, h1', ?_, ?_⟩
  · rw [run]
    simp only [gsFold, evalNoGrad, val h2, k0, hk]
    rw [if_pos (big (by norm_num)), if_neg]
    · rfl
    · rw [XR.lt_fin]
      simp only [decide_eq_true_eq, not_lt]
      nlinarith [k1.2, show (0 : ℝ) < 1 / (1 + 0.01 + 1e-8) by norm_num]
  · rw [run]
    simp only [gsFold, evalNoGrad, val h2', k0, hk]
    rw [if_pos (big (by norm_num)), if_pos]
    · rfl
    · rw [XR.lt_fin]
      have : (-1 : ℝ) / (1 + 0.01 + 1e-8) = - (1 / (1 + 0.01 + 1e-8)) := by ring
      rw [this]
      nlinarith [k1.2, show (0 : ℝ) < 1 / (1 + 0.01 + 1e-8) by norm_num]

end Limbo
