import Verif.Model.AcquiBo
import Verif.Spec.BoAcqui
import Verif.Lemmas.BoTrace
import Verif.Props.StatGp
import Verif.Props.Acqui
import Verif.Props.Search

/-! # C93: the next point of a Bayesian optimizer maximises the acquisition function of the posterior of all data -/

namespace Limbo

open Gp

/-- whatever grid search returns is a maximum over the grid: no hypothesis about the values -/
theorem gridSearch_some_optimum {f : ObjFn XR} {b fuel : Nat} (hb : 0 < b) (hfuel : b + 2 ≤ fuel) {init : List XR} (hd : 0 < init.length) {r : List XR}
    (hr : gridSearch b fuel f init true = some r) : OnGrid (regularAxis b) init.length r ∧
      ∀ q, OnGrid (regularAxis b) init.length q → lt (f r false).1 (f q false).1 = false := by
  have hval : ∀ p, OnGrid (regularAxis b) (init.length - 1) p → ∃ x ∈ regularAxis b, lt negDblMax (f (p ++ [x]) false).1 = true := by
    intro p hp
    by_contra hcon
    push Not at hcon
    have := C18_grid_search_uninitialised f b fuel _ (gridSearchAxis_exact b fuel hb hfuel) init hd p hp
      (fun x hx => by simpa using hcon x hx)
    rw [this] at hr; cases hr
  obtain ⟨r', h1, h2, h3⟩ := C18_grid_search_optimum f b fuel hb hfuel init hd hval
  rw [h1, Option.some.injEq] at hr
  subst hr; exact ⟨h2, h3⟩

theorem onGrid_iff {b d : Nat} {x : List XR} : OnGrid (regularAxis b) d x ↔ ∃ v, x = v.map XR.fin ∧ GridPt b d v := by
  constructor
  · rintro ⟨h1, h2⟩
    have : AllFin x := fun y hy => by
      obtain ⟨k, -, hk⟩ := List.mem_map.1 (h2 y hy)
      exact ⟨_, hk.symm⟩
    have hv : ∃ v : List ℝ, x = v.map XR.fin := this.exists_map
    obtain ⟨v, rfl⟩ := hv
    refine ⟨v, rfl, by simpa using h1, fun c hc => ?_⟩
    obtain ⟨k, hk, hk'⟩ := List.mem_map.1 (h2 (XR.fin c) (List.mem_map_of_mem hc))
    exact ⟨k, by have := List.mem_range.1 hk; omega, (Xt.fin.inj hk').symm⟩
  · rintro ⟨v, rfl, h1, h2⟩
    refine ⟨by simpa using h1, fun y hy => ?_⟩
    obtain ⟨c, hc, rfl⟩ := List.mem_map.1 hy
    obtain ⟨k, hk, rfl⟩ := h2 c hc
    exact List.mem_map.2 ⟨k, List.mem_range.2 (by omega), rfl⟩

variable {E : GpEnv} {u : Nat → Nat → ℝ × ℝ} {junkC : List (List ℝ) → List (List ℝ) → GpState E → Nat → Nat → ℝ}
  {junkA : List ℝ → List ℝ → GpState E → Nat → Nat → ℝ} {hp : HpFunctor E} {P : BoParams XR (GpState E)}

/-- `GridSearch` as inner optimizer of a bounded problem; the random starting point has the dimension asked for. -/
structure UsesGridSearch {M : Type} (P : BoParams XR M) (b fuel : Nat) : Prop where
  bounded : P.bounded = true
  opt : P.acquiOpt = fun _ f x bd => (gridSearch b fuel).toRes f x bd
  start : ∀ st n, (P.startPt st n).length = n
  bins : 0 < b
  fuel : b + 2 ≤ fuel

/-- every acquisition event is followed by the evaluation of a grid point that is maximal for the acquisition function built there -/
theorem grid_choice (hE : LawfulEnv E) (hP : P.ops = gpOps E u junkC junkA hp) {b fuel d : Nat} (hG : UsesGridSearch P b fuel) (hd : 0 < d)
    (c : Int) (u0 : ℝ × ℝ) (ops : List (BoOp XR (GpState E))) (afun : List XR → XR)
    (hops : ∀ f a r n, BoOp.optimize f a r n ∈ ops → a = afun ∧ f.dimIn = d) (st : BoState XR (GpState E))
    (h : runOps P ops (newBo P c (Gp.new E u0)) = some st) (pre rest : List (Event XR (GpState E))) (g : GpState E) (it : Int)
    (htr : st.trace = pre ++ .acqui g it :: rest) :
    GpFits g (expect pre) ∧ ∃ x r post, rest = .call (x.map XR.fin) r :: post ∧ GridPt b d x ∧
      ∀ q, GridPt b d q → lt (P.acqui g it afun (x.map XR.fin) false).1 (P.acqui g it afun (q.map XR.fin) false).1 = false := by
  refine ⟨(C90_predictions_from_all_data hE hP c u0 ops st h pre rest g it).1 htr, ?_⟩
  have hnt : ∀ q f x b, P.acquiOpt q f x b ≠ .threw := by
    intro q f x b; rw [hG.opt]; simp only [Optz.toRes]; split <;> simp
  obtain ⟨q, n, x, r, post, hr, -, -, -, hn, hx⟩ := runOps_traceT (chosen_step (D := fun n => n = d) (afun := afun) hnt) ops hops _ st chosen_nil h pre g it rest htr
  subst hn
  rw [hG.opt, hG.bounded] at hx
  simp only [Optz.toRes] at hx
  split at hx
  swap
  · cases hx
  next y hy =>
  cases hx
  obtain ⟨h1, h2⟩ := gridSearch_some_optimum hG.bins hG.fuel (by rw [hG.start]; exact hd) hy
  rw [hG.start] at h1 h2
  obtain ⟨v, rfl, hv⟩ := onGrid_iff.1 h1
  exact ⟨v, r, post, hr, hv, fun q hq => h2 _ (onGrid_iff.2 ⟨q, rfl, hq⟩)⟩

theorem fits_predicts {g : GpState E} {d : List (List XR × List XR)} (h : GpFits g d) : ∃ mean var, Predicts g mean var := by
  choose m var hq using fits_query h
  exact ⟨fun v => (List.range g.dimOut.toNat).map (m v), var, fun v => ⟨m v, hq v, rfl⟩⟩

theorem Predicts.view {g : GpState E} {mean : List ℝ → List ℝ} {var : List ℝ → ℝ} (h : Predicts g mean var) (v : List ℝ) :
    (Gp.view g).query v = some (mean v, var v) := by
  obtain ⟨m, h1, h2⟩ := h v
  simp only [Gp.view, h1, Option.map_some, h2]

theorem Predicts.view_mu {g : GpState E} {mean : List ℝ → List ℝ} {var : List ℝ → ℝ} (h : Predicts g mean var) (v : List ℝ) :
    (Gp.view g).mu v = some (mean v) := by
  obtain ⟨m, h1, h2⟩ := h v
  simp only [Gp.view, query_mu h1, Option.map_some, h2]

theorem realAgg_eq {afun : List XR → XR} {F : List ℝ → ℝ} (hF : ∀ l, afun (l.map XR.fin) = XR.fin (F l)) : realAgg afun = F := by
  funext l; simp only [realAgg, hF]; rfl

/-- **C93**, `acqui::UCB` with `opt::GridSearch`: after any history of calls, each time the optimizer decided, the next point evaluated was
a grid point with the highest upper confidence bound `F(mean) + alpha sqrt(variance)` of the posterior given all data. -/
theorem C93_ucb (hE : LawfulEnv E) (hP : P.ops = gpOps E u junkC junkA hp) {b fuel d : Nat} (hG : UsesGridSearch P b fuel) (hd : 0 < d)
    (alpha : ℝ) (hA : P.acqui = ucbObj alpha) (c : Int) (u0 : ℝ × ℝ) (ops : List (BoOp XR (GpState E))) (afun : List XR → XR) (F : List ℝ → ℝ)
    (hF : ∀ l, afun (l.map XR.fin) = XR.fin (F l))
    (hops : ∀ f a r n, BoOp.optimize f a r n ∈ ops → a = afun ∧ f.dimIn = d) (st : BoState XR (GpState E))
    (h : runOps P ops (newBo P c (Gp.new E u0)) = some st) (pre rest : List (Event XR (GpState E))) (g : GpState E) (it : Int)
    (htr : st.trace = pre ++ .acqui g it :: rest) :
    GpFits g (expect pre) ∧ ∃ x r post, rest = .call (x.map XR.fin) r :: post ∧ GridPt b d x ∧
      ∃ mean var, Predicts g mean var ∧ ∀ q, GridPt b d q → F (mean q) + alpha * √(var q) ≤ F (mean x) + alpha * √(var x) := by
  obtain ⟨hfit, x, r, post, hr, hx, hmax⟩ := grid_choice hE hP hG hd c u0 ops afun hops st h pre rest g it htr
  obtain ⟨mean, var, hm⟩ := fits_predicts hfit
  refine ⟨hfit, x, r, post, hr, hx, mean, var, hm, fun q hq => ?_⟩
  have hval : ∀ v : List ℝ, (P.acqui g it afun (v.map XR.fin) false).1 = XR.fin (F (mean v) + alpha * √(var v)) := by
    intro v
    rw [hA]
    simp only [ucbObj, reals?_map, Option.bind_some, Acqui.ucb, Bool.false_eq_true, if_false, hm.view, Option.map_some, realAgg_eq hF]
  have := hmax q hq
  rw [hval, hval] at this
  by_contra hlt
  rw [(XR.lt_fin _ _).2 (not_le.1 hlt)] at this
  cases this

/-- values of `GP_UCB` from iteration 1 on -/
theorem gpUcb_value {g : GpState E} {mean : List ℝ → List ℝ} {var : List ℝ → ℝ} (hm : Predicts g mean var) (F : List ℝ → ℝ) {delta : ℝ}
    (h0 : 0 < delta) (h1 : delta ≤ 1) {t : Nat} (ht : 1 ≤ t) (v : List ℝ) (hv : 0 ≤ var v) : Acqui.gpUcb (Gp.view g) F delta t v false =
      some (XR.fin (F (mean v) + √(2 * Real.log ((t : ℝ) ^ ((g.dimIn.toNat : ℝ) / 2 + 2) * Real.pi ^ 2 / (3 * delta))) * √(var v))) := by
  have hb := beta_arg (d := g.dimIn.toNat) ht h0 h1
  unfold Acqui.gpUcb
  rw [hm.view]
  simp only [Bool.false_eq_true, if_false, Option.map_some, Option.some.injEq]
  have hbeta : Acqui.gpUcbBeta (Gp.view g).dimIn delta t =
      XR.fin √(2 * Real.log ((t : ℝ) ^ ((g.dimIn.toNat : ℝ) / 2 + 2) * Real.pi ^ 2 / (3 * delta))) := by
    change Acqui.gpUcbBeta g.dimIn.toNat delta t = _
    generalize g.dimIn.toNat = din at hb
    unfold Acqui.gpUcbBeta
    simp only
    rw [show XR.fin ((t : ℝ) ^ ((din : ℝ) / 2 + 2)) * XR.fin (Real.pi * Real.pi) = XR.fin ((t : ℝ) ^ ((din : ℝ) / 2 + 2) * (Real.pi * Real.pi)) from rfl,
      XR.acqui_fin_div_fin _ _ (by linarith)]
    rw [show (t : ℝ) ^ ((din : ℝ) / 2 + 2) * (Real.pi * Real.pi) / (delta * 3) =
      (t : ℝ) ^ ((din : ℝ) / 2 + 2) * Real.pi ^ 2 / (3 * delta) by rw [sq, mul_comm delta 3]]
    generalize (t : ℝ) ^ ((din : ℝ) / 2 + 2) * Real.pi ^ 2 / (3 * delta) = q at hb
    rw [xlog_pos (by linarith), show XR.fin 2 * XR.fin (Real.log q) = XR.fin (2 * Real.log q) from rfl, XR.acqui_sqrt_fin (by have := Real.log_pos hb; linarith)]
  rw [hbeta, XR.acqui_sqrt_fin hv]
  rfl

theorem gpUcbObj_nan {delta : ℝ} (h0 : 0 < delta) (g : GpState E) {it : Int} (hit : it ≤ 0) (afun : List XR → XR) (x : List XR) :
    (gpUcbObj delta g it afun x false).1 = (Xt.nan : Xt ℝ) := by
  have hz : it.toNat = 0 := by omega
  unfold gpUcbObj
  rw [hz]
  cases hv : reals? x with
  | none => rfl
  | some v =>
    cases hq : (Gp.view g).query v with
    | none =>
      have : Acqui.gpUcb (Gp.view g) (realAgg afun) delta 0 v false = none := by simp [Acqui.gpUcb, hq]
      simp only [Option.bind_some, this]
      rfl
    | some r =>
      simp only [Option.bind_some, C52_gp_ucb_first_iteration_is_nan _ _ h0 hq]
      rfl

/-- grid search on a function that is NaN everywhere returns uninitialised memory -/
theorem gridSearch_nan {f : ObjFn XR} {b fuel : Nat} (hb : 0 < b) (hfuel : b + 2 ≤ fuel) {init : List XR} (hd : 0 < init.length)
    (hf : ∀ x, (f x false).1 = (Xt.nan : Xt ℝ)) : gridSearch b fuel f init true = none := by
  obtain ⟨y, hy⟩ := List.exists_mem_of_ne_nil _ (regularAxis_ne_nil b)
  refine C18_grid_search_uninitialised f b fuel _ (gridSearchAxis_exact b fuel hb hfuel) init hd (List.replicate (init.length - 1) y)
    ⟨by simp, fun x hx => by rw [(List.mem_replicate.1 hx).2]; exact hy⟩ fun x _ => ?_
  rw [hf]; rfl

/-- **C93** fails for `acqui::GP_UCB` with `opt::GridSearch`: `GP_UCB` is NaN at every point in the first iteration, grid search then returns an
uninitialised vector, and the optimizer evaluates the objective there.  No run with at least one iteration is defined: whatever happened
before, `optimize` cannot return normally. -/
theorem C93_gp_ucb_grid_search_undefined {b fuel : Nat} (hG : UsesGridSearch P b fuel) (delta : ℝ) (h0 : 0 < delta) (hA : P.acqui = gpUcbObj delta)
    (N : Int) (hN : 1 ≤ N) (hS : P.stop = [maxIterations N]) (f : StateFun XR (GpState E)) (hd : 0 < f.dimIn) (afun : List XR → XR) (reset : Bool) (n : Nat)
    (st st' : BoState XR (GpState E)) : optimize P f afun reset n st ≠ .ok st' := by
  have hit : ∀ s : BoState XR (GpState E), s.currentIteration = 0 → boIteration P f afun s = .ub := by
    intro s hs
    unfold boIteration
    simp only [hG.opt, hA, hG.bounded, Optz.toRes]
    rw [gridSearch_nan hG.bins hG.fuel (by rw [hG.start]; exact hd) fun x => gpUcbObj_nan h0 _ (by simp [BoState.push, hs]) _ x]
  have hloop : ∀ n (s : BoState XR (GpState E)), s.currentIteration = 0 → (boLoop P f afun n s).All (fun _ => False) (fun _ => True) := by
    intro n s hs
    cases n with
    | zero => trivial
    | succ n =>
      have hN' : ¬ N ≤ 0 := by omega
      have hst : boStop P afun s = some (false, { s with trace := s.trace ++ [.asked 0 false] }) := by
        simp [boStop, hS, chainCriteria, maxIterations, hs, hN']
      unfold boLoop
      rw [hst]
      simp only
      rw [hit { s with trace := s.trace ++ [.asked 0 false] } hs]
      trivial
  have heval : ∀ pts (s : BoState XR (GpState E)), s.currentIteration = 0 → (evalAll f pts s).All (fun s => s.currentIteration = 0) (fun _ => True) := by
    intro pts
    induction pts with
    | nil => intro s hs; exact hs
    | cons x xs ih =>
      intro s hs
      refine Res.All.andThen (Q := fun s => s.currentIteration = 0) ?_ ih
      unfold evalAndAdd
      simp only
      split
      · trivial
      · unfold addNewSample
        split
        · trivial
        · exact hs
  have hall : (optimize P f afun reset n st).All (fun _ => False) (fun _ => True) := by
    unfold optimize
    refine Res.All.andThen (Q := fun s => s.currentIteration = 0) ?_ fun s1 h1 => ?_
    · unfold boInit
      cases reset
      · simp only [Bool.false_eq_true, if_false]
        split
        · split
          · exact heval _ _ rfl
          · trivial
        · rfl
      · simp only [if_true]
        split
        · exact heval _ _ rfl
        · trivial
    · refine Res.All.andThen (Q := fun s => s.currentIteration = 0) ?_ fun s2 h2 => hloop n s2 h2
      unfold boModelInit
      split
      · exact h1
      · exact withModel_all _ _ _ _ (fun m _ => h1) (fun m => trivial)
  intro h
  rw [h] at hall
  exact hall

/-- **C93**: for a new optimizer without initial points this is undefined behaviour in the first iteration, whatever the objective. -/
theorem C93_gp_ucb_grid_search_first_iteration {b fuel : Nat} (hG : UsesGridSearch P b fuel) (delta : ℝ) (h0 : 0 < delta) (hA : P.acqui = gpUcbObj delta)
    (N : Int) (hN : 1 ≤ N) (hS : P.stop = [maxIterations N]) (hI : ∀ st d, P.initPts st d = some []) (f : StateFun XR (GpState E)) (hd : 0 < f.dimIn)
    (afun : List XR → XR) (reset : Bool) (n : Nat) (c : Int) (m : GpState E) : optimize P f afun reset (n + 1) (newBo P c m) = .ub := by
  have hN' : ¬ N ≤ 0 := by omega
  have h1 : optimize P f afun reset (n + 1) (newBo P c m) = boLoop P f afun (n + 1)
      { initState reset (newBo P c m) with model := P.ops.fresh f.dimIn f.dimOut } := by
    unfold optimize
    simp only
    rw [boInit_eq, if_pos (by right; rfl), hI]
    cases reset <;> rfl
  have hst : ∀ s : BoState XR (GpState E), s.currentIteration = 0 → boStop P afun s = some (false, { s with trace := s.trace ++ [.asked 0 false] }) := by
    intro s hs
    simp [boStop, hS, chainCriteria, maxIterations, hs, hN']
  rw [h1]
  unfold boLoop
  rw [hst _ (by cases reset <;> rfl)]
  simp only
  unfold boIteration
  simp only [hG.opt, hA, hG.bounded, Optz.toRes]
  rw [gridSearch_nan hG.bins hG.fuel (by rw [hG.start]; exact hd) fun x => gpUcbObj_nan h0 _ (by cases reset <;> exact le_rfl) _ x]
  rfl

theorem fits_var_nonneg (hE : LawfulEnv E) {g : GpState E} {d : List (List XR × List XR)} (h : GpFits g d) (hd : d ≠ []) {v : List ℝ} {m : Nat → ℝ}
    {var : ℝ} (hq : query g v = some (m, var)) : 0 ≤ var := by
  obtain ⟨xs, ys, -, he, -, -, -, h1⟩ := h
  have hx : xs ≠ [] := by rintro rfl; rw [he] at hd; exact hd rfl
  obtain ⟨din, dout, -, hK, -, hp⟩ := h1 hx
  obtain ⟨m', h2, -⟩ := hp v
  rw [h2, Option.some.injEq] at hq
  rw [← (Prod.mk.inj hq).2]
  have hn := noise_pos hK hE.noise
  unfold reportedVar
  split
  · linarith
  · next h =>
    have : (0 : ℝ) < 2 ^ (-52 : ℤ) := by positivity
    linarith

/-- **C93**, `acqui::GP_UCB` with `opt::GridSearch` in an iteration after the first, with data: the next point is a grid point with the highest
`F(mean) + sqrt(2 log(t^(d/2+2) pi^2 / (3 delta))) sqrt(variance)`, `t` the iteration.  (By the previous theorem no run gets there; with
another first iteration it would.) -/
theorem C93_gp_ucb (hE : LawfulEnv E) {b fuel d : Nat} (hb : 0 < b) (hfuel : b + 2 ≤ fuel) (hd : 0 < d)
    (delta : ℝ) (h0 : 0 < delta) (h1 : delta ≤ 1) (g : GpState E) (data : List (List XR × List XR)) (hfit : GpFits g data) (hdata : data ≠ [])
    (afun : List XR → XR) (F : List ℝ → ℝ) (hF : ∀ l, afun (l.map XR.fin) = XR.fin (F l)) (t : ℕ) (ht : 1 ≤ t) (x0 r : List XR) (hx0 : x0.length = d)
    (hr : gridSearch b fuel (gpUcbObj delta g t afun) x0 true = some r) :
    ∃ x, r = x.map XR.fin ∧ GridPt b d x ∧ ∃ mean var, Predicts g mean var ∧ ∀ q, GridPt b d q →
      F (mean q) + √(2 * Real.log ((t : ℝ) ^ ((g.dimIn.toNat : ℝ) / 2 + 2) * Real.pi ^ 2 / (3 * delta))) * √(var q) ≤
      F (mean x) + √(2 * Real.log ((t : ℝ) ^ ((g.dimIn.toNat : ℝ) / 2 + 2) * Real.pi ^ 2 / (3 * delta))) * √(var x) := by
  obtain ⟨h2, h3⟩ := gridSearch_some_optimum hb hfuel (by rw [hx0]; exact hd) hr
  rw [hx0] at h2 h3
  obtain ⟨x, rfl, hx⟩ := onGrid_iff.1 h2
  obtain ⟨mean, var, hm⟩ := fits_predicts hfit
  refine ⟨x, rfl, hx, mean, var, hm, fun q hq => ?_⟩
  have hval : ∀ v : List ℝ, (gpUcbObj delta g t afun (v.map XR.fin) false).1 =
      XR.fin (F (mean v) + √(2 * Real.log ((t : ℝ) ^ ((g.dimIn.toNat : ℝ) / 2 + 2) * Real.pi ^ 2 / (3 * delta))) * √(var v)) := by
    intro v
    obtain ⟨m, hq, -⟩ := hm v
    simp only [gpUcbObj, reals?_map, Option.bind_some, Int.toNat_natCast, realAgg_eq hF,
      gpUcb_value hm F h0 h1 ht v (fits_var_nonneg hE hfit hdata hq)]
  have := h3 _ (onGrid_iff.2 ⟨q, rfl, hq⟩)
  rw [hval, hval] at this
  by_contra hlt
  rw [(XR.lt_fin _ _).2 (not_le.1 hlt)] at this
  cases this

/-- values of `EI` -/
theorem ei_values {g : GpState E} {mean : List ℝ → List ℝ} {var : List ℝ → ℝ} (hm : Predicts g mean var) (jitter w : ℝ) {afun : List XR → XR}
    {F : List ℝ → ℝ} (hF : ∀ l, afun (l.map XR.fin) = XR.fin (F l)) (it : Int) :
    ∃ value, IsEi g mean var F jitter value ∧ ∀ v : List ℝ, (eiObj jitter w g it afun (v.map XR.fin) false).1 = XR.fin (value v) := by
  have hsome : ∀ v, ∃ s y, Acqui.ei (Gp.view g) F jitter (.new w) v false = some (s, y) := by
    intro v
    by_cases hz : (Gp.view g).samples = [] ∨ √(var v) < 1e-10
    · exact ⟨_, _, C53_zero (hm.view v) hz⟩
    · push Not at hz
      obtain ⟨s', fmax, -, he⟩ := C53_expected_improvement (f := mean) (fun x _ => hm.view_mu x) (EiReach.new (jitter := jitter) (afun := F) w) hz.1 (hm.view v) hz.2
      exact ⟨_, _, he⟩
  choose s value hval using hsome
  refine ⟨value, ⟨?_, ?_⟩, fun v => ?_⟩
  · intro v hz
    have := C53_zero (afun := F) (jitter := jitter) (s := .new w) (hm.view v) hz
    rw [hval v, Option.some.injEq] at this
    exact (Prod.mk.inj this).2
  · intro hne
    have hbest : ∃ fmax, IsGreatest {y | ∃ s ∈ samplesOf g, y = F (mean s)} fmax := by
      obtain ⟨a, ha⟩ := List.exists_mem_of_ne_nil _ hne
      have hfin : {y | ∃ s ∈ samplesOf g, y = F (mean s)}.Finite := by
        refine ((samplesOf g).toFinset.finite_toSet.image fun s => F (mean s)).subset ?_
        rintro y ⟨s, hs, rfl⟩
        exact ⟨s, by simpa using hs, rfl⟩
      obtain ⟨m, hm1, hm2⟩ := Set.exists_max_image _ id hfin ⟨_, a, ha, rfl⟩
      exact ⟨m, hm1, hm2⟩
    obtain ⟨fmax, hb⟩ := hbest
    refine ⟨fmax, hb, fun v hv => ?_⟩
    obtain ⟨s', fmax', hb', he⟩ := C53_expected_improvement (f := mean) (fun x _ => hm.view_mu x) (EiReach.new (jitter := jitter) (afun := F) w) hne (hm.view v) hv
    rw [hval v, Option.some.injEq] at he
    rw [(Prod.mk.inj he).2, IsGreatest.unique hb hb']
  · simp only [eiObj, reals?_map, Option.bind_some, realAgg_eq hF, hval]

/-- **C93**, `acqui::EI` with `opt::GridSearch`: after any history of calls, each time the optimizer decided, the next point evaluated was a grid
point with the highest expected improvement (over the best prediction at a sample) for the posterior given all data. -/
theorem C93_ei (hE : LawfulEnv E) (hP : P.ops = gpOps E u junkC junkA hp) {b fuel d : Nat} (hG : UsesGridSearch P b fuel) (hd : 0 < d)
    (jitter w : ℝ) (hA : P.acqui = eiObj jitter w) (c : Int) (u0 : ℝ × ℝ) (ops : List (BoOp XR (GpState E))) (afun : List XR → XR) (F : List ℝ → ℝ)
    (hF : ∀ l, afun (l.map XR.fin) = XR.fin (F l))
    (hops : ∀ f a r n, BoOp.optimize f a r n ∈ ops → a = afun ∧ f.dimIn = d) (st : BoState XR (GpState E))
    (h : runOps P ops (newBo P c (Gp.new E u0)) = some st) (pre rest : List (Event XR (GpState E))) (g : GpState E) (it : Int)
    (htr : st.trace = pre ++ .acqui g it :: rest) :
    GpFits g (expect pre) ∧ ∃ x r post, rest = .call (x.map XR.fin) r :: post ∧ GridPt b d x ∧
      ∃ mean var value, Predicts g mean var ∧ IsEi g mean var F jitter value ∧ ∀ q, GridPt b d q → value q ≤ value x := by
  obtain ⟨hfit, x, r, post, hr, hx, hmax⟩ := grid_choice hE hP hG hd c u0 ops afun hops st h pre rest g it htr
  obtain ⟨mean, var, hm⟩ := fits_predicts hfit
  obtain ⟨value, hei, hv⟩ := ei_values hm jitter w hF it
  refine ⟨hfit, x, r, post, hr, hx, mean, var, value, hm, hei, fun q hq => ?_⟩
  have := hmax q hq
  rw [hA, hv, hv] at this
  by_contra hlt
  rw [(XR.lt_fin _ _).2 (not_le.1 hlt)] at this
  cases this

/-- **C93**: with `EI` grid search always finds a point, so this pair "does its job" in the sense of C91. -/
theorem C93_ei_grid_search_never_fails {b fuel d : Nat} (hb : 0 < b) (hfuel : b + 2 ≤ fuel) (hd : 0 < d) (jitter w : ℝ) (g : GpState E) (it : Int)
    {data : List (List XR × List XR)} (hfit : GpFits g data) (afun : List XR → XR) (x0 : List XR) (hx0 : x0.length = d) :
    ∃ y, (gridSearch b fuel).toRes (eiObj jitter w g it afun) x0 true = .point y ∧ PointOk d y := by
  obtain ⟨mean, var, hm⟩ := fits_predicts hfit
  have hval : ∀ v : List ℝ, ∃ y : ℝ, 0 ≤ y ∧ (eiObj jitter w g it afun (v.map XR.fin) false).1 = XR.fin y := by
    intro v
    have hsome : ∃ s y, Acqui.ei (Gp.view g) (realAgg afun) jitter (.new w) v false = some (s, y) := by
      by_cases hz : (Gp.view g).samples = [] ∨ √(var v) < 1e-10
      · exact ⟨_, _, C53_zero (hm.view v) hz⟩
      · push Not at hz
        obtain ⟨s', fmax, -, he⟩ := C53_expected_improvement (f := mean) (fun x _ => hm.view_mu x)
          (EiReach.new (jitter := jitter) (afun := realAgg afun) w) hz.1 (hm.view v) hz.2
        exact ⟨_, _, he⟩
    obtain ⟨s, y, h⟩ := hsome
    exact ⟨y, C53_nonneg (f := mean) (fun x _ => hm.view_mu x) (.new w) h, by simp only [eiObj, reals?_map, Option.bind_some, h]⟩
  obtain ⟨r, h1, h2, -⟩ := C18_grid_search_optimum (eiObj jitter w g it afun) b fuel hb hfuel x0 (by rw [hx0]; exact hd) (by
    intro p hp
    obtain ⟨x, hx⟩ := List.exists_mem_of_ne_nil _ (regularAxis_ne_nil b)
    refine ⟨x, hx, ?_⟩
    have hon : OnGrid (regularAxis b) (x0.length - 1 + 1) (p ++ [x]) :=
      ⟨by simp [hp.1], fun z hz => by
        rcases List.mem_append.1 hz with hz | hz
        · exact hp.2 z hz
        · rw [List.mem_singleton.1 hz]; exact hx⟩
    obtain ⟨v, hv, -⟩ := onGrid_iff.1 hon
    obtain ⟨y, hy, he⟩ := hval v
    rw [hv, he]
    unfold negDblMax
    rw [XR.lit_eq, XR.lt_fin]
    refine lt_of_lt_of_le ?_ hy
    norm_num)
  refine ⟨r, by simp only [Optz.toRes, h1], ?_⟩
  rw [hx0] at h2
  obtain ⟨v, rfl, hv⟩ := onGrid_iff.1 h2
  refine ⟨?_, by simpa using hv.1⟩
  intro z hz
  obtain ⟨a, -, rfl⟩ := List.mem_map.1 hz
  exact ⟨a, rfl⟩

/-! A concrete optimizer: the one of `Props/BoGp.lean`, with `EI` and a grid search on 5 × 5 points. -/

noncomputable def exEiP : BoParams XR (GpState exEnv) :=
  { exGpP with
    acqui := eiObj 0 7
    acquiOpt := fun _ f x b => (gridSearch 4 6).toRes f x b }

theorem exEiP_grid : UsesGridSearch exEiP 4 6 := ⟨rfl, rfl, fun _ _ => List.length_replicate .., by norm_num, by norm_num⟩

theorem exEiP_ok : ComponentsOk exEiP exHp 2 1 :=
  { din_pos := exGpP_ok.din_pos, dout_pos := exGpP_ok.dout_pos, init := exGpP_ok.init
    inner := fun st afun h => Or.inl (C93_ei_grid_search_never_fails (by norm_num) (by norm_num) (by norm_num) 0 7 st.model st.currentIteration h afun _
      (List.length_replicate ..))
    stop := exGpP_ok.stop, stats := exGpP_ok.stats, hp := exGpP_ok.hp }

example : ∃ st, runOps exEiP exGpOps (newBo exEiP 0 (Gp.new exEnv (0, 0))) = some st ∧
    (∀ f a r n, BoOp.optimize f a r n ∈ exGpOps → a = (fun v => v.headD (XR.fin 0)) ∧ f.dimIn = 2) ∧
    ∀ l : List ℝ, (l.map XR.fin).headD (XR.fin 0) = XR.fin (l.headD 0) := by
  obtain ⟨st, h⟩ := C91_every_history_runs exEnv_lawful rfl exEiP_ok 3 (List.mem_singleton.2 rfl) 0 (0, 0) exGpOps exGpOps_ok (by
    intro f afun reset fuel hm
    simp only [exGpOps, List.mem_cons, List.not_mem_nil, or_false, reduceCtorEq, false_or, BoOp.optimize.injEq] at hm
    rw [hm.2.2.2]; norm_num)
  refine ⟨st, h, ?_, ?_⟩
  · intro f a r n hm
    simp only [exGpOps, List.mem_cons, List.not_mem_nil, or_false, reduceCtorEq, false_or, BoOp.optimize.injEq] at hm
    exact ⟨hm.2.1, by rw [hm.1]; rfl⟩
  · intro l; cases l <;> rfl

end Limbo
