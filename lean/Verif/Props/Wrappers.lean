import Verif.Lemmas.Wrappers
import Verif.Lemmas.XtLaws
import Mathlib.Tactic.Linarith
import Mathlib.Tactic.NormNum

/-! # C22, C23: the wrappers around NLopt and libcmaes -/

namespace Limbo

variable {α : Type} [Scalar α]

open Nl

/-- **C22** for every history of calls on one object: an optimisation runs the library exactly once, from the given point, on the user's
function, with the unit box as bounds iff this *or an earlier* call since the last initialisation was bounded, with the constraints added
since then, and returns the library's point (unless it throws something other than the three exceptions that are swallowed). -/
theorem C22_history (P : Nl.Params α) (lib : Nl.Lib α) (ops : List (Op α)) {o : Obj α} (ho : steps P lib ops none = some o) (f : ObjFn α)
    {x : List α} (hx : x ≠ []) (b : Bool) (hd : ∀ n, dimAfter ops none = some n → n = x.length) : ∃ out r, call P lib o f x b = some out ∧
      out.run = some r ∧ r.start = x ∧ r.objective = nloptFunc f ∧ r.cfg.dim = x.length ∧
      r.cfg.bounds = (if b = true ∨ boundedBefore ops none false = true then
        some (List.replicate x.length (lit 0), List.replicate x.length (lit 1)) else none) ∧
      r.cfg.ineq = ineqAfter ops none [] ∧ r.cfg.eq = eqAfter ops none [] ∧ r.cfg.maxeval = P.iterations ∧
      ((lib r).2 ≠ .other → out.ret = some (lib r).1) ∧ ((lib r).2 = .other → out.ret = none) := by
  have T := nl_tracks (lib := lib) ops (o := none) (d := none) (b := false) (li := []) (le := [])
    ⟨fun _ => ⟨rfl, rfl, rfl, rfl⟩, fun n e => by simp at e⟩ ho
  have hc : o.getD (setup P x.length) = ⟨x.length, if boundedBefore ops none false = true then
      some (List.replicate x.length (lit 0), List.replicate x.length (lit 1)) else none, ineqAfter ops none [], eqAfter ops none [],
      P.iterations, P.ftol, P.xtol⟩ := by
    cases hda : dimAfter ops none with
    | none =>
      obtain ⟨h1, h2, h3, h4⟩ := T.none hda
      rw [h1, h2, h3, h4]
      rfl
    | some n =>
      rw [T.some n hda, ← hd n hda]
      rfl
  obtain ⟨out, c, h1, -, h3, h4, h5, h6⟩ := nl_call_same (P := P) (lib := lib) (o := o) (f := f) (b := b) hx (by rw [hc])
  refine ⟨out, _, h1, h4, rfl, rfl, ?_, ?_, ?_, ?_, ?_, h5, h6⟩ <;> rw [h3, hc] <;> cases b <;> simp

/-- **C22** for a fresh object: bounds iff requested. -/
theorem C22_fresh_object (P : Nl.Params α) (lib : Nl.Lib α) (f : ObjFn α) {x : List α} (hx : x ≠ []) (b : Bool) :
    ∃ out r, call P lib none f x b = some out ∧ out.run = some r ∧ r.start = x ∧ r.objective = nloptFunc f ∧ r.cfg.dim = x.length ∧
      r.cfg.bounds = (if b then some (List.replicate x.length (lit 0), List.replicate x.length (lit 1)) else none) ∧
      r.cfg.ineq = [] ∧ r.cfg.eq = [] ∧ r.cfg.maxeval = P.iterations ∧
      ((lib r).2 ≠ .other → out.ret = some (lib r).1) ∧ ((lib r).2 = .other → out.ret = none) := by
  have := C22_history P lib [] (o := none) rfl f hx b (by simp [dimAfter])
  simpa [boundedBefore, ineqAfter, eqAfter] using this

/-- **C22** fails for a re-used object: after a bounded call, an unbounded call still runs in the unit box. -/
theorem C22_bounds_persist (P : Nl.Params α) (lib : Nl.Lib α) (f g : ObjFn α) {x y : List α} (hx : x ≠ []) (hy : y.length = x.length) :
    ∃ o out r, steps P lib [.call f x true] none = some o ∧ call P lib o g y false = some out ∧ out.run = some r ∧
      r.cfg.bounds = some (List.replicate y.length (lit 0), List.replicate y.length (lit 1)) := by
  obtain ⟨out1, c, h1, h2, -⟩ := nl_call_same (P := P) (lib := lib) (o := none) (f := f) (b := true) hx rfl
  have hs : steps P lib [.call f x true] none = some (some c) := by
    simp [steps, step, h1, h2]
  have hyne : y ≠ [] := by
    rintro rfl
    exact hx (List.length_eq_zero_iff.1 hy.symm)
  obtain ⟨out, r, e1, e2, -, -, -, e3, -⟩ := C22_history P lib [.call f x true] hs g hyne false (by
    intro n hn
    simp only [dimAfter, Option.getD_none, Option.some.injEq] at hn
    rw [← hn, hy])
  refine ⟨_, out, r, hs, e1, e2, ?_⟩
  rw [e3]
  simp [boundedBefore]

/-- **C22**: an object tied to one dimension does nothing in another one: an unbounded call silently returns the starting point without
running the library, a bounded call throws. -/
theorem C22_other_dimension (P : Nl.Params α) (lib : Nl.Lib α) (ops : List (Op α)) {o : Obj α} (ho : steps P lib ops none = some o) (f : ObjFn α)
    {x : List α} (hx : x ≠ []) {n : Nat} (hn : dimAfter ops none = some n) (hne : n ≠ x.length) :
    (∃ out, call P lib o f x false = some out ∧ out.run = none ∧ out.ret = some x) ∧
    ∃ out, call P lib o f x true = some out ∧ out.run = none ∧ out.ret = none := by
  have T := nl_tracks (lib := lib) ops (o := none) (d := none) (b := false) (li := []) (le := [])
    ⟨fun _ => ⟨rfl, rfl, rfl, rfl⟩, fun n e => by simp at e⟩ ho
  have ho' := T.some n hn
  constructor
  · refine ⟨⟨o, none, some x⟩, ?_, rfl, rfl⟩
    rw [ho']
    exact if_neg (by simpa using hx) |>.trans (if_neg (by rintro ⟨h, -⟩; cases h) |>.trans (if_pos hne))
  · refine ⟨⟨o, none, none⟩, ?_, rfl, rfl⟩
    rw [ho']
    exact if_neg (by simpa using hx) |>.trans (if_pos ⟨rfl, hne⟩)

/-- **C22**: constraints added to an object that has not been initialised are ignored. -/
theorem C22_early_constraints_ignored (P : Nl.Params α) (lib : Nl.Lib α) (f g : ObjFn α) (t : α) {x : List α} (hx : x ≠ []) (b : Bool) :
    ∃ o out r, steps P lib [.ineq g t, .eq g t] none = some o ∧ call P lib o f x b = some out ∧ out.run = some r ∧
      r.cfg.ineq = [] ∧ r.cfg.eq = [] := by
  obtain ⟨out, r, e1, e2, -, -, -, -, e3, e4, -⟩ := C22_history P lib [.ineq g t, .eq g t] (o := none) rfl f hx b (by simp [dimAfter])
  exact ⟨none, out, r, rfl, e1, e2, by simpa [ineqAfter] using e3, by simpa [eqAfter] using e4⟩

/-- **C22**: with a library that keeps to its bounds, a bounded call from a point of the unit box returns a point of the unit box, whatever
was done with the object before. -/
theorem C22_stays_in_unit_box (P : Nl.Params α) (lib : Nl.Lib α) (hlib : KeepsBounds lib) (ops : List (Op α)) {o : Obj α}
    (ho : steps P lib ops none = some o) (f : ObjFn α) {x : List α} (hx : x ≠ []) (hd : ∀ n, dimAfter ops none = some n → n = x.length)
    (hin : ∀ v ∈ x, le (lit 0) v = true ∧ le v (lit 1) = true) : ∃ out, call P lib o f x true = some out ∧
      ∀ y, out.ret = some y → y.length = x.length ∧ ∀ v ∈ y, le (lit 0) v = true ∧ le v (lit 1) = true := by
  obtain ⟨out, r, e1, -, e3, -, -, e6, -, -, -, e7, e8⟩ := C22_history P lib ops ho f hx true hd
  refine ⟨out, e1, fun y hy => ?_⟩
  have hs : (lib r).2 ≠ .other := by
    intro h; rw [e8 h] at hy; simp at hy
  rw [e7 hs] at hy
  simp only [Option.some.injEq] at hy
  subst hy
  rw [if_pos (Or.inl rfl)] at e6
  obtain ⟨h1, h2⟩ := hlib r _ _ e6 (by rw [e3]; simp) (by rw [e3]; simp) (by
    intro i l v h hl hv hh
    rw [e3] at hv
    rw [List.eq_of_mem_replicate (List.mem_of_getElem? hl), List.eq_of_mem_replicate (List.mem_of_getElem? hh)]
    exact hin v (List.mem_of_getElem? hv))
  rw [e3] at h1
  refine ⟨h1, fun v hv => ?_⟩
  obtain ⟨i, hi, rfl⟩ := List.getElem_of_mem hv
  exact h2 i _ _ _ (List.getElem?_replicate_of_lt (by rw [← h1]; exact hi)) (List.getElem?_eq_getElem hi)
    (List.getElem?_replicate_of_lt (by rw [← h1]; exact hi))

omit [Scalar α] in
/-- **C22**: what the library sees is the user's function: its value and, when the library asks for it, its gradient. -/
theorem C22_objective_is_users (f : ObjFn α) (x : List α) : nloptFunc f x [] = some ((f x false).1, []) ∧
    ∀ v g buf, buf ≠ [] → f x true = (v, some g) → g.length = buf.length → nloptFunc f x buf = some (v, g) := by
  refine ⟨rfl, fun v g buf hb hf hl => ?_⟩
  unfold nloptFunc
  rw [if_neg (by simpa using hb), hf]
  simp only [hl, le_refl, if_true]
  simp

/-- the hypotheses of C22: a library that returns its starting point keeps to the bounds -/
example : KeepsBounds (α := XR) fun r => (r.start, .ok) := fun _ _ _ _ _ _ h => ⟨rfl, h⟩

/-! ## C23 -/

open Cma

/-- **C23**: a minimiser of the library's problem is a maximiser of the user's function: the returned point is one at which the user's
function was evaluated, and it has at least the value of every other such point. -/
theorem C23_maximises (hneg : ∀ a b : α, le (-a) (-b) = le b a) (P : Cma.Params α) (lib : Cma.Lib α) (f : ObjFn α)
    (x : List α) (b : Bool) (hlib : BestSound lib (problem P lib f x b)) (hP : P.stochastic = false ∧ P.handleUncertainty = false) {y : List α} (hy : Cma.call P lib f x b = some y) :
    (∃ c ∈ (lib.solve (problem P lib f x b)).candidates, (problem P lib f x b).point c = y) ∧
    ∀ c ∈ (lib.solve (problem P lib f x b)).candidates,
      le (f ((problem P lib f x b).point c) false).1 (f y false).1 = true := by
  obtain ⟨h1, h2⟩ := hlib
  have hyp : y = (problem P lib f x b).point (lib.solve (problem P lib f x b)).best := by
    unfold Cma.call at hy
    simp only [hP.1, hP.2, Bool.or_false, Bool.false_eq_true, if_false] at hy
    cases b
    · simpa [problem, Problem.point] using hy.symm
    · by_cases he : (problem P lib f x true).x0.isEmpty = true
      · simp [he] at hy
      · simp only [he, Bool.and_false, Bool.false_eq_true, if_false] at hy
        simpa [problem, Problem.point] using hy.symm
  subst hyp
  refine ⟨⟨_, h1, rfl⟩, fun c hc => ?_⟩
  have h := h2 c hc
  cases b
  · simpa only [problem, Bool.false_eq_true, if_false, fitOf, hneg, evalNoGrad] using h
  · simpa only [problem, if_true, fitOf, hneg, evalNoGrad] using h

omit [Scalar α] in
theorem boundArrays_eq (P : Cma.Params α) (n : Nat) : boundArrays P n = (List.replicate n P.lbound, List.replicate n P.ubound) := by
  induction n with
  | zero => rfl
  | succ n ih => simp [boundArrays, ih, List.replicate_succ']

theorem mem_box {lib : Cma.Lib α} (hb : BoxSound lib) (P : Cma.Params α) (hP : le P.lbound P.ubound = true) (n : Nat)
    (g : List α) :
    InBox P.lbound P.ubound n ((lib.box (boundArrays P n).1 (boundArrays P n).2).pheno g) := by
  rw [boundArrays_eq]
  obtain ⟨h1, h2⟩ := hb (List.replicate n P.lbound) (List.replicate n P.ubound) (by simp) (fun i l h e1 e2 => by
    rw [List.getElem?_replicate] at e1 e2
    split_ifs at e1 e2
    cases e1
    cases e2
    exact hP) g
  rw [List.length_replicate] at h1
  refine ⟨h1, fun c hc => ?_⟩
  obtain ⟨i, hi, rfl⟩ := List.getElem_of_mem hc
  exact h2 i _ _ _ (List.getElem?_replicate_of_lt (h1 ▸ hi)) (List.getElem?_eq_getElem hi) (List.getElem?_replicate_of_lt (h1 ▸ hi))

/-- **C23**: in a bounded run the user's function is evaluated in the box `[lbound, ubound]^d` only, and the returned point is in it, whatever
the start point; the result is defined unless the dimension is 0. -/
theorem C23_bounded (P : Cma.Params α) (hP : le P.lbound P.ubound = true) (lib : Cma.Lib α) (hb : BoxSound lib) (hg : GenoLen lib) (f : ObjFn α)
    {x : List α} (hx : x ≠ []) : ∃ y, Cma.call P lib f x true = some y ∧ InBox P.lbound P.ubound x.length y ∧
      ∀ c ∈ (lib.solve (problem P lib f x true)).candidates, InBox P.lbound P.ubound x.length ((problem P lib f x true).point c) := by
  have he : ((lib.box (boundArrays P x.length).1 (boundArrays P x.length).2).geno x).isEmpty = false := by
    rw [← Bool.not_eq_true, List.isEmpty_iff]
    intro h
    have := hg (boundArrays P x.length).1 (boundArrays P x.length).2 x
    rw [h] at this
    exact hx (List.length_eq_zero_iff.mp this.symm)
  have hc : Cma.call P lib f x true = some ((lib.box (boundArrays P x.length).1 (boundArrays P x.length).2).pheno
      (if (P.stochastic || P.handleUncertainty) = true then (lib.solve (problem P lib f x true)).xmean
        else (lib.solve (problem P lib f x true)).best)) := by
    simp only [Cma.call, problem, if_true, he, Bool.and_false, Bool.false_eq_true, if_false]
  refine ⟨_, hc, mem_box hb P hP _ _, fun c _ => ?_⟩
  simpa only [problem, if_true, Problem.point] using mem_box hb P hP x.length c

/-- **C23**: an unbounded run uses no box: it starts at the given point, candidates are evaluated as they are, and the library's point is
returned. -/
theorem C23_unbounded (P : Cma.Params α) (lib : Cma.Lib α) (f : ObjFn α) (x : List α) :
    (problem P lib f x false).x0 = x ∧ (∀ c, (problem P lib f x false).point c = c) ∧
    ∃ y, Cma.call P lib f x false = some y ∧ (y = (lib.solve (problem P lib f x false)).best ∨
      y = (lib.solve (problem P lib f x false)).xmean) := by
  refine ⟨rfl, fun _ => rfl, _, rfl, ?_⟩
  by_cases h : (P.stochastic || P.handleUncertainty) = true
  · exact Or.inr (if_pos h)
  · exact Or.inl (if_neg h)

/-- **C23**: a bounded run in dimension 0 takes the first element of an empty vector: undefined behaviour. -/
theorem C23_dimension_zero_ub (P : Cma.Params α) (lib : Cma.Lib α) (hg : GenoLen lib) (f : ObjFn α) : Cma.call P lib f [] true = none := by
  have := hg (boundArrays P 0).1 (boundArrays P 0).2 []
  have h0 : ((lib.box (boundArrays P 0).1 (boundArrays P 0).2).geno []).isEmpty = true := by
    rw [List.isEmpty_iff]
    exact List.length_eq_zero_iff.mp this
  simp only [Cma.call, problem, if_true, List.length_nil, h0, Bool.and_self]

/-- **C23**: with `stochastic` or uncertainty handling the mean of the last distribution is returned, otherwise the best candidate. -/
theorem C23_returned (P : Cma.Params α) (lib : Cma.Lib α) (f : ObjFn α) (x : List α) (b : Bool) {y : List α}
    (hy : Cma.call P lib f x b = some y) :
    (P.stochastic = true ∨ P.handleUncertainty = true → y = (problem P lib f x b).point (lib.solve (problem P lib f x b)).xmean) ∧
    (¬ (P.stochastic = true ∨ P.handleUncertainty = true) → y = (problem P lib f x b).point (lib.solve (problem P lib f x b)).best) := by
  unfold Cma.call at hy
  rw [← Bool.or_eq_true]
  generalize (P.stochastic || P.handleUncertainty) = s at hy ⊢
  cases b
  · cases s <;> simp [problem, Problem.point] at hy ⊢ <;> exact hy.symm
  · by_cases he : (problem P lib f x true).x0.isEmpty = true
    · simp [he] at hy
    · simp only [he, Bool.and_false, Bool.false_eq_true, if_false] at hy
      cases s <;> simp [problem, Problem.point] at hy ⊢ <;> exact hy.symm

/-- the object after all setters, field by field -/
theorem settings_eq (P : Cma.Params α) (d0 : Settings α) (dim : Nat) : settings P d0 dim =
    { mtFeval := true, algo := P.variant, restarts := P.restarts, elitism := P.elitism,
      maxFevals := if P.maxFunEvals < 0 then 900 * (dim + 3) * (dim + 3) else P.maxFunEvals,
      maxIter := if P.maxIters < 0 then 1000000 else P.maxIters,
      stop := fun
        | .maxFevals => true
        | .maxIter => true
        | .autoMaxIter => P.autoMaxIters
        | .tolHistFun => !lt P.funTolerance (lit 0)
        | .fTarget => lt (lit 0) P.funTarget
        | .equalFunVals => P.equalFunEvals
        | .tolX => lt (lit 0) P.xrelTolerance
        | .conditionCov => true
        | .tolUpSigma => true
        | .noEffectAxis => false
        | .noEffectCoor => false
        | .stagnation => P.stagnation
      ftolerance := if lt P.funTolerance (lit 0) then d0.ftolerance else P.funTolerance
      ftarget := if lt (lit 0) P.funTarget then -P.funTarget else d0.ftarget
      xtolerance := if lt (lit 0) P.xrelTolerance then P.xrelTolerance else d0.xtolerance
      initialFvalue := P.funComputeInitial, uh := P.handleUncertainty, quiet := !P.verbose } := by
  have hS : ∀ s t : Settings α, s.mtFeval = t.mtFeval → s.algo = t.algo → s.restarts = t.restarts → s.elitism = t.elitism →
      s.maxFevals = t.maxFevals → s.maxIter = t.maxIter → (∀ c, s.stop c = t.stop c) → s.ftolerance = t.ftolerance → s.ftarget = t.ftarget →
      s.xtolerance = t.xtolerance → s.initialFvalue = t.initialFvalue → s.uh = t.uh → s.quiet = t.quiet → s = t := by
    intro s t; cases s; cases t; intros; simp_all; funext c; simp_all
  unfold settings setters
  cases h1 : lt P.funTolerance (lit 0) <;> cases h2 : lt (lit 0) P.funTarget <;> cases h3 : lt (lit 0) P.xrelTolerance <;>
    (apply hS <;> first | rfl | (intro c; cases c <;> rfl))

theorem settings_documented (P : Cma.Params α) (d0 : Settings α) (dim : Nat) : Documented P d0 dim (settings P d0 dim) := by
  rw [settings_eq]
  exact {
    variant := rfl
    restarts := rfl
    elitism := rfl
    uncertainty := rfl
    max_evals := ⟨rfl, fun h => if_neg (by omega)⟩
    default_evals := fun h => (if_pos h).trans (by ring)
    max_iters := ⟨rfl, fun h => if_neg (by omega)⟩
    default_iters := fun h => if_pos h
    auto_iters := rfl
    equal_values := rfl
    stagnation := rfl
    tolerance_on := fun h => ⟨by simp [h], if_neg (by simp [h])⟩
    tolerance_off := fun h => ⟨by simp [h], if_pos h⟩
    xtol_on := fun h => ⟨h, if_pos h⟩
    xtol_off := fun h => ⟨h, if_neg (by simp [h])⟩
    target_on := fun h => h
    target_off := fun h => ⟨h, if_neg (by simp [h])⟩
    initial := rfl
    verbose := rfl
    others := ⟨rfl, rfl, rfl, rfl⟩ }

/-- **C23**: the settings follow the documented table, for every configuration and whatever the library's own defaults are; the parent
population is passed on. -/
theorem C23_documented (P : Cma.Params α) (lib : Cma.Lib α) (f : ObjFn α) (x : List α) (b : Bool) :
    Documented P lib.new x.length (problem P lib f x b).settings ∧ (problem P lib f x b).lambda = P.lambda := by
  have hs : (problem P lib f x b).settings = settings P lib.new x.length := by cases b <;> rfl
  exact ⟨hs ▸ settings_documented P lib.new x.length, by cases b <;> rfl⟩

/-- **C23**: the target criterion, in the user's terms: with a positive `fun_target` the library stops at values of its function not above
the target it was given, and these are the points where the user's function has reached `fun_target`. -/
theorem C23_target (hneg : ∀ a b : α, le (-a) (-b) = le b a) (P : Cma.Params α) (lib : Cma.Lib α) (f : ObjFn α) (x : List α) (b : Bool)
    (h : lt (lit 0) P.funTarget = true) (z : List α) :
    le ((problem P lib f x b).fit z) (problem P lib f x b).settings.ftarget = le P.funTarget (f z false).1 := by
  have hs : (problem P lib f x b).settings.ftarget = -P.funTarget := by
    cases b <;> simp [problem, settings_eq, h]
  have hf : (problem P lib f x b).fit z = -(f z false).1 := by cases b <;> rfl
  rw [hs, hf, hneg]

/-- **C23**: the initial step size is half the distance between the bounds, or one half without bounds. -/
theorem C23_initial_step (P : Cma.Params XR) (lib : Cma.Lib XR) (f : ObjFn XR) (x : List XR) (lo hi : ℝ) (hlo : P.lbound = XR.fin lo)
    (hhi : P.ubound = XR.fin hi) : (problem P lib f x true).sigma = XR.fin (|hi - lo| / 2) ∧ (problem P lib f x false).sigma = XR.fin (1 / 2) := by
  have h2 : (lit (1 / 2) : XR) = XR.fin (1 / 2) := by rw [XR.lit_eq]; norm_num
  have h0 : (lit 0 : XR) = XR.fin 0 := by rw [XR.lit_eq]; norm_num
  refine ⟨?_, h2⟩
  show lit (1 / 2) * absS (P.ubound - P.lbound) = _
  rw [hlo, hhi, XR.sub_fin, h2]
  unfold absS
  rw [h0]
  by_cases h : hi - lo < 0
  · rw [if_pos (by rw [XR.lt_fin]; exact h), abs_of_neg h]
    show XR.fin (1 / 2) * XR.fin (-(hi - lo)) = _
    rw [XR.mul_fin]; congr 1; ring
  · rw [if_neg (by rw [XR.lt_fin]; exact h), abs_of_nonneg (not_lt.1 h), XR.mul_fin]; congr 1; ring

/-- **C23** (disagreement with the text): `fun_tolerance` is documented to enable its criterion "if bigger than 0", but at 0 it is enabled
too, with tolerance 0; `xrel_tolerance` is documented to be "ignored if negative", but at 0 it is ignored as well. -/
theorem C23_tolerance_at_zero (P : Cma.Params F64) (d0 : Settings F64) (dim : Nat) (h1 : P.funTolerance = F64.of 0)
    (h2 : P.xrelTolerance = F64.of 0) : (settings P d0 dim).stop .tolHistFun = true ∧ (settings P d0 dim).ftolerance = F64.of 0 ∧
      (settings P d0 dim).stop .tolX = false := by
  have D := settings_documented P d0 dim
  have a1 := D.tolerance_on (by rw [h1]; decide +kernel)
  exact ⟨a1.1, a1.2.trans h1, (D.xtol_off (by rw [h2]; decide +kernel)).1⟩

/-- A library that evaluates two candidates, compares their values, and whose transformation yields the lower corner for the first of
its two candidates and the upper one for the second. -/
def exCma (d0 : Settings F64) : Cma.Lib F64 where
  new := d0
  box lo hi := ⟨id, fun g => if g = [] then lo else hi⟩
  solve p := ⟨[], if le (p.fit (p.point p.x0)) (p.fit (p.point [])) then p.x0 else [], [[], p.x0]⟩

/-- the sum of the coordinates -/
def exCmaF : ObjFn F64 := fun x _ => (x.foldl (· + ·) (F64.of 0), none)

/-- the default configuration, with other bounds and a target -/
def exCmaP : Cma.Params F64 :=
  ⟨1, -1, -1, true, true, true, F64.of (-1), F64.of (-1), F64.of 3, false, 1, 0, false, false, F64.of (-1), F64.of 2, false, -1⟩

/-- the hypotheses of C23, for doubles, on the box `[-1, 2]^2`: the better of the two corners is returned -/
example (d0 : Settings F64) : (∀ a b : F64, le (-a) (-b) = le b a) ∧ le exCmaP.lbound exCmaP.ubound = true ∧ GenoLen (exCma d0) ∧
    BoxSound (exCma d0) ∧ BestSound (exCma d0) (problem exCmaP (exCma d0) exCmaF [F64.of 0, F64.of 1] true) ∧
    Cma.call exCmaP (exCma d0) exCmaF [F64.of 0, F64.of 1] true = some [F64.of 2, F64.of 2] := by
  have hle : ∀ a b : F64, le a b = true → le a a = true ∧ le b b = true := by
    intro a b h
    cases a <;> cases b <;> simp_all [Scalar.le, Xt.le]
  have hp : ∀ c, (problem exCmaP (exCma d0) exCmaF [F64.of 0, F64.of 1] true).fit
      ((problem exCmaP (exCma d0) exCmaF [F64.of 0, F64.of 1] true).point c) = if c = [] then F64.of 2 else F64.of (-4) := by
    intro c
    by_cases hc : c = []
    · subst hc
      change fitOf exCmaF [F64.of (-1), F64.of (-1)] = _
      rw [if_pos rfl]
      decide +kernel
    · rw [if_neg hc]
      change fitOf exCmaF (if c = [] then _ else [F64.of 2, F64.of 2]) = _
      rw [if_neg hc]
      decide +kernel
  have hb : ((exCma d0).solve (problem exCmaP (exCma d0) exCmaF [F64.of 0, F64.of 1] true)).best = [F64.of 0, F64.of 1] := by
    simp only [exCma]
    change (if le ((problem exCmaP (exCma d0) exCmaF [F64.of 0, F64.of 1] true).fit ((problem exCmaP (exCma d0) exCmaF
      [F64.of 0, F64.of 1] true).point [F64.of 0, F64.of 1])) ((problem exCmaP (exCma d0) exCmaF [F64.of 0, F64.of 1] true).fit ((problem
      exCmaP (exCma d0) exCmaF [F64.of 0, F64.of 1] true).point [])) = true then [F64.of 0, F64.of 1] else []) = _
    rw [hp, hp]
    decide +kernel
  refine ⟨xt_neg_le, by decide +kernel, fun _ _ _ => rfl, ?_, ?_, ?_⟩
  · intro lo hi hl hlh g
    have hlen : ((exCma d0).box lo hi).pheno g = lo ∨ ((exCma d0).box lo hi).pheno g = hi := by
      by_cases hg : g = []
      · exact Or.inl (if_pos hg)
      · exact Or.inr (if_neg hg)
    rcases hlen with e | e <;> rw [e]
    · refine ⟨rfl, fun i l x h a1 a2 a3 => ?_⟩
      rw [a1] at a2
      cases a2
      exact ⟨(hle _ _ (hlh i _ _ a1 a3)).1, hlh i _ _ a1 a3⟩
    · refine ⟨hl.symm, fun i l x h a1 a2 a3 => ?_⟩
      rw [a2] at a3
      cases a3
      exact ⟨hlh i _ _ a1 a2, (hle _ _ (hlh i _ _ a1 a2)).2⟩
  · refine ⟨by rw [hb]; exact List.mem_cons_of_mem _ (List.mem_singleton.mpr rfl), fun c hc => ?_⟩
    rw [hp, hp, hb]
    by_cases h : c = []
    · rw [if_pos h]
      decide +kernel
    · rw [if_neg h]
      decide +kernel
  · have hc : Cma.call exCmaP (exCma d0) exCmaF [F64.of 0, F64.of 1] true = some (if ((exCma d0).solve (problem exCmaP (exCma d0) exCmaF
      [F64.of 0, F64.of 1] true)).best = [] then [F64.of (-1), F64.of (-1)] else [F64.of 2, F64.of 2]) := rfl
    rw [hc, hb]
    rfl

/-- the hypotheses of C22: a bounded call, a constraint, in dimension 2 -/
example (P : Nl.Params F64) (f : ObjFn F64) : ∃ o, steps P (fun r => (r.start, .ok)) [.call f [F64.of 0, F64.of 1] true, .ineq f (F64.of 0)] none = some o ∧
    dimAfter [.call f [F64.of 0, F64.of 1] true, .ineq f (F64.of 0)] none = some 2 := ⟨_, rfl, rfl⟩

end Limbo
