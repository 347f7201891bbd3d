import Verif.Lemmas.BoGpSafe
import Verif.Props.HpOpt
import Verif.Props.Bo

/-!
**C90**, **C91**: `BOptimizer` together with `model::GP`, as a user instantiates it.  `P` is any configuration of the optimizer whose
model operations are those of a GP with the kernel, mean and hyper-parameter optimizer of `E` and `hp`; initialiser, acquisition function,
inner optimizer, stopping criteria, statistics and objective are arbitrary.
-/

namespace Limbo

open Gp

variable {E : GpEnv} {u : Nat → Nat → ℝ × ℝ} {junkC : List (List ℝ) → List (List ℝ) → GpState E → Nat → Nat → ℝ}
  {junkA : List ℝ → List ℝ → GpState E → Nat → Nat → ℝ} {hp : HpFunctor E} {P : BoParams XR (GpState E)}

theorem newBo_relT (c : Int) (u0 : ℝ × ℝ) : RelT GpRel (newBo P c (Gp.new E u0)) :=
  ⟨newBo_inv P c _, by intro pre e hp; simp [newBo] at hp, [], [], [], rfl, rfl, GpReach.new u0⟩

/-- **C90**: after any history of calls (`optimize` with or without reset, points given by hand, evaluations, exceptions caught in
between), look at any moment at which an acquisition function was built or the hyper-parameters were about to be optimized: the GP held
exactly the finite evaluations since the last reset, in order, and its predictions were the posterior given these data.  When statistics
were written the GP lacked the newest evaluation and predicted from all the others. -/
theorem C90_predictions_from_all_data (hE : LawfulEnv E) (hP : P.ops = gpOps E u junkC junkA hp) (c : Int) (u0 : ℝ × ℝ)
    (ops : List (BoOp XR (GpState E))) (st : BoState XR (GpState E)) (h : runOps P ops (newBo P c (Gp.new E u0)) = some st)
    (pre post : List (Event XR (GpState E))) (g : GpState E) (it : Int) :
    (st.trace = pre ++ .acqui g it :: post → GpFits g (expect pre)) ∧
    (st.trace = pre ++ .hp g :: post → GpFits g (expect pre)) ∧
    (st.trace = pre ++ .stat g :: post → ∃ others newest, expect pre = others ++ [newest] ∧ GpFits g others) := by
  have hL : LawfulRel P.ops (GpRel (E := E)) := by rw [hP]; exact gpOps_lawful u junkC junkA hp
  have hT := (runOps_inv (I := RelT GpRel) (fun op st h => runOp_rel hL op st h) ops _ st (newBo_relT c u0) h).tr
  refine ⟨fun he => ?_, fun he => ?_, fun he => ?_⟩
  · exact (hT pre (.acqui g it) ⟨post, by rw [he]; simp⟩ : GpRel g (expect pre)).fits hE
  · exact (hT pre (.hp g) ⟨post, by rw [he]; simp⟩ : GpRel g (expect pre)).fits hE
  · obtain ⟨d, p, h1, h2⟩ := (hT pre (.stat g) ⟨post, by rw [he]; simp⟩ : ∃ d p, GpRel g d ∧ expect pre = d ++ [p])
    exact ⟨d, p, h2, h1.fits hE⟩

/-- **C90**: when `optimize` returns, `model()` predicts from exactly `samples()` and `observations()`. -/
theorem C90_on_return (hE : LawfulEnv E) (hP : P.ops = gpOps E u junkC junkA hp) (c : Int) (u0 : ℝ × ℝ)
    (ops : List (BoOp XR (GpState E))) (st st' : BoState XR (GpState E)) (h : runOps P ops (newBo P c (Gp.new E u0)) = some st)
    (f : StateFun XR (GpState E)) (afun : List XR → XR) (reset : Bool) (fuel : Nat) (ho : optimize P f afun reset fuel st = .ok st') :
    GpFits st'.model (st'.samples.zip st'.observations) := by
  have hL : LawfulRel P.ops (GpRel (E := E)) := by rw [hP]; exact gpOps_lawful u junkC junkA hp
  have hT := runOps_inv (I := RelT GpRel) (fun op st h => runOp_rel hL op st h) ops _ st (newBo_relT c u0) h
  have := optimize_rel hL f afun reset fuel st hT
  rw [ho] at this
  exact this.model.fits hE

/-- **C91**: with components that do their job, an objective of fixed dimensions and points of the right dimension, no call of any
history runs into undefined behaviour: every assertion of the GP holds, every vector access is in range. -/
theorem C91_no_undefined_behaviour (hE : LawfulEnv E) (hP : P.ops = gpOps E u junkC junkA hp) {din dout : Nat} (hC : ComponentsOk P hp din dout)
    (c : Int) (u0 : ℝ × ℝ) (ops : List (BoOp XR (GpState E))) (hops : ∀ o ∈ ops, BoOpOk din dout o) (st : BoState XR (GpState E))
    (h : runOps P ops (newBo P c (Gp.new E u0)) = some st) (op : BoOp XR (GpState E)) (hop : BoOpOk din dout op) : runOp P op st ≠ .ub := by
  obtain ⟨h1, h2⟩ := runOps_safe hE hP hC ops hops _ st (newBo_relT c u0) ⟨by simp [newBo], by simp [newBo], by simp [newBo]⟩ h
  exact (runOp_safe hE hP hC op hop st h1 h2).ne_ub

/-- **C91**: if moreover the run is limited to `N` iterations, `optimize` ends: normally, with a GP fitted to everything stored, or by
passing on an exception (of the objective, of the inner optimizer, or `EvaluationError` for a NaN or infinite observation). -/
theorem C91_optimize_ends (hE : LawfulEnv E) (hP : P.ops = gpOps E u junkC junkA hp) {din dout : Nat} (hC : ComponentsOk P hp din dout)
    (N : Int) (hN : maxIterations N ∈ P.stop) (c : Int) (u0 : ℝ × ℝ) (ops : List (BoOp XR (GpState E))) (hops : ∀ o ∈ ops, BoOpOk din dout o)
    (st : BoState XR (GpState E)) (h : runOps P ops (newBo P c (Gp.new E u0)) = some st) (f : StateFun XR (GpState E))
    (hf : ObjectiveOk din dout f) (afun : List XR → XR) (reset : Bool) (fuel : Nat) (hfuel : N < fuel) :
    (∃ st', optimize P f afun reset (fuel + 1) st = .ok st' ∧ GpFits st'.model (st'.samples.zip st'.observations)) ∨
    ∃ e st', optimize P f afun reset (fuel + 1) st = .throw e st' := by
  have hres : ∀ o : Option (GpState E), gpRes o ≠ .diverge := by intro o; cases o <;> simp [gpRes]
  have h1 := C04_terminates P N hN f afun (by rw [hP]; intro _ _ _; exact hres _) (by rw [hP]; intro _ _ _; exact hres _)
    (by rw [hP]; intro _; exact hres _) reset fuel hfuel st
  have h2 := C91_no_undefined_behaviour hE hP hC c u0 ops hops st h (.optimize f afun reset (fuel + 1)) hf
  have h3 := fun st' => C90_on_return hE hP c u0 ops st st' h f afun reset (fuel + 1)
  simp only [runOp] at h2
  cases hr : optimize P f afun reset (fuel + 1) st with
  | ok s => exact Or.inl ⟨s, rfl, h3 s hr⟩
  | throw e s => exact Or.inr ⟨e, s, rfl⟩
  | ub => exact absurd hr h2
  | diverge => exact absurd hr h1

/-- **C91**: every history of careful calls (with enough fuel for `N` iterations in each run) can be executed to its end. -/
theorem C91_every_history_runs (hE : LawfulEnv E) (hP : P.ops = gpOps E u junkC junkA hp) {din dout : Nat} (hC : ComponentsOk P hp din dout)
    (N : Int) (hN : maxIterations N ∈ P.stop) (c : Int) (u0 : ℝ × ℝ) (ops : List (BoOp XR (GpState E))) (hops : ∀ o ∈ ops, BoOpOk din dout o)
    (hfuel : ∀ f afun reset fuel, BoOp.optimize f afun reset fuel ∈ ops → N + 1 < fuel ∧ 0 < fuel) :
    ∃ st, runOps P ops (newBo P c (Gp.new E u0)) = some st := by
  have hL : LawfulRel P.ops (GpRel (E := E)) := by rw [hP]; exact gpOps_lawful u junkC junkA hp
  have hres : ∀ o : Option (GpState E), gpRes o ≠ .diverge := by intro o; cases o <;> simp [gpRes]
  suffices ∀ (ops : List (BoOp XR (GpState E))), (∀ o ∈ ops, BoOpOk din dout o) →
      (∀ f afun reset fuel, BoOp.optimize f afun reset fuel ∈ ops → N + 1 < fuel ∧ 0 < fuel) →
      ∀ st : BoState XR (GpState E), RelT GpRel st → Shape P.stats.length din dout st → ∃ st', runOps P ops st = some st' from
    this ops hops hfuel _ (newBo_relT c u0) ⟨by simp [newBo], by simp [newBo], by simp [newBo]⟩
  intro ops
  induction ops with
  | nil => intro _ _ st _ _; exact ⟨st, rfl⟩
  | cons o os ih =>
    intro ho hfu st h hs
    have h1 := runOp_rel hL o st h
    have h2 := runOp_safe hE hP hC o (ho o (by simp)) st h hs
    have ih' := ih (fun o h => ho o (by simp [h])) (fun f a r n hm => hfu f a r n (by simp [hm]))
    simp only [runOps]
    cases hr : runOp P o st with
    | ok s => rw [hr] at h1 h2; exact ih' s h1 h2
    | throw e s => rw [hr] at h1 h2; exact ih' s h1 h2
    | ub => rw [hr] at h2; exact h2.elim
    | diverge =>
      exfalso
      cases o with
      | optimize f afun reset fuel =>
        obtain ⟨hf1, hf2⟩ := hfu f afun reset fuel (by simp)
        obtain ⟨n, rfl⟩ := Nat.exists_eq_succ_of_ne_zero hf2.ne'
        exact C04_terminates P N hN f afun (by rw [hP]; intro _ _ _; exact hres _) (by rw [hP]; intro _ _ _; exact hres _)
          (by rw [hP]; intro _; exact hres _) reset n (by push_cast at hf1; omega) st hr
      | addNewSample s v => simp only [runOp, addNewSample] at hr; split at hr <;> cases hr
      | evalAndAdd f x =>
        simp only [runOp, evalAndAdd] at hr
        split at hr
        · cases hr
        · simp only [addNewSample] at hr; split at hr <;> cases hr

/-- **C91**: the default hyper-parameter optimizer, `KernelLFOpt` with `Rprop`, does its job for every kernel of the library. -/
theorem C91_rprop_kernel_opt_never_fails (hE : LawfulEnv E) (hI : StdKernel E.K) (hn : E.KP.optimizeNoise = true → 0 < E.KP.noise)
    (iterations : GpState E → Int) (hit : ∀ s, 0 < iterations s) (epsStop : XR) (he : le (lit 0) epsStop = true)
    (J : GpState E → List ℝ → Nat → Nat → ℝ) (j : GpState E → Nat → Nat → ℝ) (A : GpAbs) (g : GpState E) (hr : GpReach E A g) (hA : A.UpToDate) :
    (HpFunctor.kernelLF (fun s => rprop (iterations s) epsStop) J j).run g ≠ none := by
  obtain ⟨din, dout, hh⟩ := (hr.tracks hE).ne hA.1
  obtain ⟨s', v, v', h, -⟩ := C38_kernel_lf_opt hE hI hn hr hA hh.data (hit g) he (J g) (j g)
  show kernelLFOpt _ _ _ _ ≠ none
  rw [h]; simp

/-! ### The hypotheses are met -/

/-- hyper-parameter optimization by `KernelLFOpt<Rprop>`, 300 steps -/
noncomputable def exHp : HpFunctor exEnv := .kernelLF (fun _ => rprop 300 (lit 0)) (fun _ _ _ _ => 7) (fun _ _ _ => 5)

/-- squared-exponential GP with ARD on two inputs, two initial points, three iterations, hyper-parameters every second iteration; the
inner optimizer proposes a point that depends on the number of samples and throws after the tenth -/
noncomputable def exGpP : BoParams XR (GpState exEnv) where
  bounded := true
  statsEnabled := true
  hpPeriod := 2
  ops := gpOps exEnv (fun _ _ => (1, 2)) (fun _ _ _ _ _ => 7) (fun _ _ _ _ _ => 7) exHp
  initPts := fun _ d => some [List.replicate d (XR.fin 0), List.replicate d (XR.fin 1)]
  acqui := fun _ _ _ => fun _ _ => (XR.fin 0, none)
  acquiOpt := fun st _ x _ => if 10 < st.samples.length then .threw else .point (x.map fun _ => XR.fin (1 / (st.samples.length + 1)))
  startPt := fun _ d => List.replicate d (XR.fin (1/2))
  stop := [maxIterations 3]
  stats := [statSamples, statObservations, statAggregated]

/-- the objective returns its first coordinate, but NaN at its fourth call -/
noncomputable def exGpF : StateFun XR (GpState exEnv) where
  dimIn := 2
  dimOut := 1
  call := fun tr x => if (callPts tr).length = 3 then .ret [(Xt.nan : Xt ℝ)] else .ret [x.headD (XR.fin 0)]

theorem exGpP_ok : ComponentsOk exGpP exHp 2 1 where
  din_pos := by norm_num
  dout_pos := by norm_num
  init _ := ⟨_, rfl, by
    intro x hx
    simp only [List.mem_cons, List.not_mem_nil, or_false] at hx
    rcases hx with rfl | rfl
    · exact ⟨fun y hy => ⟨0, (List.mem_replicate.1 hy).2⟩, rfl⟩
    · exact ⟨fun y hy => ⟨1, (List.mem_replicate.1 hy).2⟩, rfl⟩⟩
  inner st afun _ := by
    show (∃ y, (if 10 < st.samples.length then OptRes.threw else _) = OptRes.point y ∧ _) ∨ (if 10 < st.samples.length then OptRes.threw else _) = _
    split
    · exact Or.inr rfl
    · refine Or.inl ⟨_, rfl, ?_, by simp [exGpP]⟩
      intro y hy
      rw [List.mem_map] at hy
      obtain ⟨_, -, rfl⟩ := hy
      exact ⟨_, rfl⟩
  stop c hc st afun _ := by
    simp only [exGpP, List.mem_singleton] at hc
    subst hc; simp [maxIterations]
  stats s hs st afun _ := by
    simp only [exGpP, List.mem_cons, List.not_mem_nil, or_false] at hs
    rcases hs with rfl | rfl | rfl <;> simp [statSamples, statObservations, statAggregated]
  hp _ A g hr hA _ := C91_rprop_kernel_opt_never_fails exEnv_lawful (.seArd 0 (by norm_num)) (fun _ => by show (0:ℝ) < 0.01; norm_num) (fun _ => 300)
    (fun _ => by norm_num) (lit 0) (show le (XR.fin _) (XR.fin _) = true by rw [XR.le_fin]) _ _ A g hr hA

theorem exGpF_ok : ObjectiveOk 2 1 exGpF := by
  refine ⟨rfl, ?_⟩
  intro tr x v hv
  simp only [exGpF] at hv
  split at hv <;> (simp only [CallRes.ret.injEq] at hv; rw [← hv]; rfl)

/-- A history: a point given by hand, then two runs (the first meets the NaN and throws, the second may run on). -/
noncomputable def exGpOps : List (BoOp XR (GpState exEnv)) :=
  [.addNewSample [XR.fin (1/4), XR.fin (1/3)] [XR.fin 2], .optimize exGpF (fun v => v.headD (XR.fin 0)) false 10]

theorem exGpOps_ok : ∀ o ∈ exGpOps, BoOpOk 2 1 o := by
  intro o ho
  simp only [exGpOps, List.mem_cons, List.not_mem_nil, or_false] at ho
  rcases ho with rfl | rfl
  · refine ⟨⟨?_, rfl⟩, rfl⟩
    intro y hy
    simp only [List.mem_cons, List.not_mem_nil, or_false] at hy
    rcases hy with rfl | rfl
    · exact ⟨_, rfl⟩
    · exact ⟨_, rfl⟩
  · exact exGpF_ok

example : ∃ st, runOps exGpP exGpOps (newBo exGpP 0 (Gp.new exEnv (0, 0))) = some st ∧ ∀ op, BoOpOk 2 1 op → runOp exGpP op st ≠ .ub := by
  have hops := exGpOps_ok
  obtain ⟨st, h⟩ := C91_every_history_runs exEnv_lawful rfl exGpP_ok 3 (List.mem_singleton.2 rfl) 0 (0, 0) exGpOps hops (by
    intro f afun reset fuel hm
    simp only [exGpOps, List.mem_cons, List.not_mem_nil, or_false, reduceCtorEq, false_or, BoOp.optimize.injEq] at hm
    rw [hm.2.2.2]; norm_num)
  exact ⟨st, h, fun op hop => C91_no_undefined_behaviour exEnv_lawful rfl exGpP_ok 0 (0, 0) exGpOps hops st h op hop⟩

end Limbo
