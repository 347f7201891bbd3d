import Verif.Model.StopGp
import Verif.Props.Regret
import Verif.Lemmas.Imgpo4

/-!
C107: what is known when `stop::MaxPredictedValue` ends a run with a Gaussian process and `opt::GridSearch`.
-/

namespace Limbo

open Gp

variable {E : GpEnv} {u : Nat → Nat → ℝ × ℝ} {junkC : List (List ℝ) → List (List ℝ) → GpState E → Nat → Nat → ℝ}
  {junkA : List ℝ → List ℝ → GpState E → Nat → Nat → ℝ} {hp : HpFunctor E} {P : BoParams XR (GpState E)}

theorem gpMean_eq {g : GpState E} {mean : List ℝ → List ℝ} {var : List ℝ → ℝ} (h : Predicts g mean var) (v : List ℝ) :
    gpMean g (v.map XR.fin) = (mean v).map XR.fin := by
  obtain ⟨m, h1, h2⟩ := h v
  simp only [gpMean, reals?_map, Option.bind_some, query_mu h1, h2, outVec, List.map_map, Function.comp_def]

/-- the start point has `dim_in()` entries -/
def StartsInDim (start : BoState XR (GpState E) → List XR) : Prop := ∀ s, (start s).length = s.model.dimIn.toNat

/-- the best observation is a stored one -/
theorem bestObservation_some {M : Type} {afun : List XR → XR} {s : BoState XR M} {w : List XR} (h : bestObservation afun s = some w) :
    w ∈ s.observations := List.mem_of_getElem? h

theorem GpRel.obs_fin {g : GpState E} {d : List (List XR × List XR)} (h : GpRel g d) : ∀ p ∈ d, ∃ l : List ℝ, p.2 = l.map XR.fin := by
  obtain ⟨xs, ys, -, rfl, -⟩ := h
  intro p hp
  simp only [finPairs, List.mem_map] at hp
  obtain ⟨q, -, rfl⟩ := hp
  exact ⟨q.2, rfl⟩

theorem zip_mem {α β : Type} {xs : List α} {ys : List β} (h : xs.length = ys.length) {i : Nat} {x : α} {y : β} (hx : xs[i]? = some x) (hy : ys[i]? = some y) :
    (x, y) ∈ xs.zip ys := List.mem_of_getElem? (i := i) (by rw [List.getElem?_zip_eq_some]; exact ⟨hx, hy⟩)

/-- what an answer "stop" means, at one state -/
theorem stopMaxPredicted_true (hE : LawfulEnv E) {b fuel d : Nat} (hb : 0 < b) (hfuel : b + 2 ≤ fuel) (hd : 0 < d)
    {start : BoState XR (GpState E) → List XR} (hstart : StartsInDim start) {ratio : ℝ} (hr : 0 ≤ ratio)
    {afun : List XR → XR} {F : List ℝ → ℝ} (hF : ∀ l, afun (l.map XR.fin) = XR.fin (F l)) {s : BoState XR (GpState E)}
    (hlen0 : s.samples.length = s.observations.length) (hs : GpRel s.model (s.samples.zip s.observations))
    (hdata : ∃ x ∈ s.samples, x.length = d) {mean : List ℝ → List ℝ} {var : List ℝ → ℝ} (hpr : Predicts s.model mean var)
    (h : stopMaxPredicted b fuel start (XR.fin ratio) s afun = some true) :
    ∃ w y, bestObservation afun s = some w ∧ afun w = XR.fin y ∧ ∀ q, GridPt b d q → ratio * F (mean q) < y := by
  have hdim : s.model.dimIn = d := by
    obtain ⟨x, hx, hl⟩ := hdata
    obtain ⟨i, hi, rfl⟩ := List.getElem_of_mem hx
    have hi' : i < s.observations.length := by rw [← hlen0]; exact hi
    rw [(hs.dims hE _ (zip_mem hlen0 (List.getElem?_eq_getElem hi) (List.getElem?_eq_getElem hi'))).1, hl]
  have hlen : (start s).length = d := by rw [hstart, hdim]; simp
  unfold stopMaxPredicted maxPredictedValue at h
  by_cases h0 : s.observations.length = 0
  · rw [if_pos h0] at h; cases h
  simp only [if_neg h0] at h
  cases hx : gridSearch b fuel (fun x _ => (afun (gpMean s.model x), none)) (start s) true with
  | none => rw [hx] at h; cases h
  | some x =>
  cases hw : bestObservation afun s with
  | none => rw [hx] at h; simp only [hw] at h; cases h
  | some w =>
  rw [hx] at h
  simp only [hw] at h
  obtain ⟨hgrid, hmax⟩ := gridSearch_some_optimum hb hfuel (by rw [hlen]; exact hd) hx
  rw [hlen] at hgrid hmax
  obtain ⟨v, rfl, hv⟩ := onGrid_iff.1 hgrid
  obtain ⟨l, hl⟩ : ∃ l : List ℝ, w = l.map XR.fin := by
    obtain ⟨i, hi, rfl⟩ := List.getElem_of_mem (bestObservation_some hw)
    have hi' : i < s.samples.length := by rw [hlen0]; exact hi
    exact hs.obs_fin _ (zip_mem hlen0 (List.getElem?_eq_getElem hi') (List.getElem?_eq_getElem hi))
  refine ⟨w, F l, rfl, by rw [hl, hF], fun q hq => ?_⟩
  have h1 := hmax _ (onGrid_iff.2 ⟨q, rfl, hq⟩)
  simp only [gpMean_eq hpr, hF] at h1 h
  rw [hl, hF] at h
  have h2 : F (mean q) ≤ F (mean v) := by
    by_contra hcon
    rw [(XR.lt_fin _ _).2 (not_le.1 hcon)] at h1; cases h1
  have h3 : ratio * F (mean v) < F l := by
    by_contra hcon
    rw [XR.mul_fin, if_pos ((XR.le_fin _ _).2 (not_lt.1 hcon))] at h; cases h
  exact lt_of_le_of_lt (mul_le_mul_of_nonneg_left h2 hr) h3

set_option exponentiation.threshold 2000 in
/-- **C107**: the criterion always answers (no undefined behaviour) when the predicted values on the grid are above -1e308, and it says "stop"
exactly when `ratio` times the predicted value is below the best observed value at every grid point. -/
theorem C107_decides (hE : LawfulEnv E) {b fuel d : Nat} (hb : 0 < b) (hfuel : b + 2 ≤ fuel) (hd : 0 < d)
    {start : BoState XR (GpState E) → List XR} (hstart : StartsInDim start) {ratio : ℝ} (hr : 0 ≤ ratio)
    {afun : List XR → XR} {F : List ℝ → ℝ} (hF : ∀ l, afun (l.map XR.fin) = XR.fin (F l)) {s : BoState XR (GpState E)}
    (hlen0 : s.samples.length = s.observations.length) (hs : GpRel s.model (s.samples.zip s.observations))
    (hdata : ∃ x ∈ s.samples, x.length = d) {mean : List ℝ → List ℝ} {var : List ℝ → ℝ} (hpr : Predicts s.model mean var)
    (hlow : ∀ q, GridPt b d q → -1e308 ≤ F (mean q)) :
    ∃ w y a, bestObservation afun s = some w ∧ afun w = XR.fin y ∧ stopMaxPredicted b fuel start (XR.fin ratio) s afun = some a ∧
      (a = true ↔ ∀ q, GridPt b d q → ratio * F (mean q) < y) := by
  have hdim : s.model.dimIn = d := by
    obtain ⟨x, hx, hl⟩ := hdata
    obtain ⟨i, hi, rfl⟩ := List.getElem_of_mem hx
    have hi' : i < s.observations.length := by rw [← hlen0]; exact hi
    rw [(hs.dims hE _ (zip_mem hlen0 (List.getElem?_eq_getElem hi) (List.getElem?_eq_getElem hi'))).1, hl]
  have hlen : (start s).length = d := by rw [hstart, hdim]; simp
  have h0 : ¬ s.observations.length = 0 := by
    obtain ⟨x, hx, -⟩ := hdata
    rw [← hlen0]; exact (List.length_pos_of_mem hx).ne'
  obtain ⟨x, hx, hgrid, hmax⟩ := C18_grid_search_optimum (fun x _ => (afun (gpMean s.model x), none)) b fuel hb hfuel (start s) (by rw [hlen]; exact hd) (by
    intro p hp
    obtain ⟨x, hx⟩ := List.exists_mem_of_ne_nil _ (regularAxis_ne_nil b)
    refine ⟨x, hx, ?_⟩
    have hon : OnGrid (regularAxis b) ((start s).length - 1 + 1) (p ++ [x]) :=
      ⟨by simp [hp.1], fun z hz => by
        rcases List.mem_append.1 hz with hz | hz
        · exact hp.2 z hz
        · rw [List.mem_singleton.1 hz]; exact hx⟩
    obtain ⟨v, hv, hgv⟩ := onGrid_iff.1 hon
    have hgv' : GridPt b d v := by
      have : (start s).length - 1 + 1 = d := by omega
      rwa [this] at hgv
    simp only [hv, gpMean_eq hpr, hF]
    unfold negDblMax
    rw [XR.lit_eq, XR.lt_fin]
    refine lt_of_lt_of_le ?_ (hlow v hgv')
    norm_num)
  rw [hlen] at hgrid hmax
  obtain ⟨v, rfl, hv⟩ := onGrid_iff.1 hgrid
  have hne : s.observations.map afun ≠ [] := by
    intro h; exact h0 (by rw [← List.length_map (f := afun), h]; rfl)
  obtain ⟨w, hw⟩ : ∃ w, bestObservation afun s = some w := by
    have := maxElement_lt hne
    rw [List.length_map] at this
    exact ⟨_, List.getElem?_eq_getElem this⟩
  obtain ⟨l, hl⟩ : ∃ l : List ℝ, w = l.map XR.fin := by
    obtain ⟨i, hi, rfl⟩ := List.getElem_of_mem (bestObservation_some hw)
    have hi' : i < s.samples.length := by rw [hlen0]; exact hi
    exact hs.obs_fin _ (zip_mem hlen0 (List.getElem?_eq_getElem hi') (List.getElem?_eq_getElem hi))
  have hans : stopMaxPredicted b fuel start (XR.fin ratio) s afun = some (!(le (XR.fin (F l)) (XR.fin (ratio * F (mean v))) : Bool)) := by
    unfold stopMaxPredicted maxPredictedValue
    simp only [if_neg h0]
    rw [hx]
    simp only [hw, gpMean_eq hpr, hl, hF, XR.mul_fin]
    cases le (XR.fin (F l)) (XR.fin (ratio * F (mean v))) <;> rfl
  refine ⟨w, F l, _, hw, by rw [hl, hF], hans, ?_⟩
  constructor
  · intro ha
    rw [ha] at hans
    obtain ⟨w', y, h1, h2, h3⟩ := stopMaxPredicted_true hE hb hfuel hd hstart hr hF hlen0 hs hdata hpr hans
    rw [hw] at h1; cases h1
    rw [hl, hF] at h2; cases h2
    exact h3
  · intro hall
    have := hall v hv
    by_contra hcon
    rw [Bool.not_eq_true, Bool.not_eq_false', XR.le_fin] at hcon
    linarith

theorem runOps_snoc_ok {α M : Type} [Scalar α] {P : BoParams α M} {op : BoOp α M} {st st' : BoState α M} (os : List (BoOp α M)) {s : BoState α M} (hs : runOps P os s = some st)
    (hrun : runOp P op st = .ok st') : runOps P (os ++ [op]) s = some st' := by
  induction os generalizing s with
  | nil => simp only [runOps, Option.some.injEq] at hs; subst hs; simp [runOps, hrun]
  | cons o os ih =>
    simp only [List.cons_append, runOps] at hs ⊢
    cases hr : runOp P o s with
    | ok q => rw [hr] at hs; exact ih hs
    | throw e q => rw [hr] at hs; exact ih hs
    | ub => rw [hr] at hs; cases hs
    | diverge => rw [hr] at hs; cases hs

/-- the criteria of the theorems: `MaxIterations` and `MaxPredictedValue` -/
theorem stopped_early {N : Int} {crit : Criterion XR (GpState E)} (hstop : ∀ c ∈ P.stop, c = maxIterations N ∨ c = crit)
    {sf : StateFun XR (GpState E)} {afun : List XR → XR} {reset : Bool} {fuel : Nat} {st st' : BoState XR (GpState E)}
    (ho : optimize P sf afun reset fuel st = .ok st') (hearly : st'.currentIteration < N) :
    ∃ s tr, st' = { s with trace := tr } ∧ crit s afun = some true := by
  obtain ⟨s, h1, -, -, h4, -⟩ := C08_optimize_ends_with_stop P sf afun reset fuel st st' ho
  obtain ⟨as, h5, -⟩ := boStop_spec h1
  obtain ⟨c, hc, hc'⟩ := (C08_stops_iff_some_criterion P afun s st' true h1).1 rfl
  rcases hstop c hc with rfl | rfl
  · rw [C08_max_iterations, h4] at hc'; omega
  · exact ⟨s, _, h5, hc'⟩

/-- **C107**: after any history of calls, if a run limited to `N` iterations by `MaxIterations` and also stopped by `MaxPredictedValue` with
`GridSearch` returns before its `N` iterations are done, then `ratio` times the value the GP predicts - given all stored data - is at every
point of the grid less than the best observed value. -/
theorem C107_stop_certificate (hE : LawfulEnv E) (hP : P.ops = gpOps E u junkC junkA hp) {b fuel d : Nat} (hb : 0 < b) (hfuel : b + 2 ≤ fuel) (hd : 0 < d)
    {start : BoState XR (GpState E) → List XR} (hstart : StartsInDim start) {ratio : ℝ} (hr : 0 ≤ ratio) {N : Int}
    (hstop : ∀ c ∈ P.stop, c = maxIterations N ∨ c = stopMaxPredicted b fuel start (XR.fin ratio))
    {afun : List XR → XR} {F : List ℝ → ℝ} (hF : ∀ l, afun (l.map XR.fin) = XR.fin (F l))
    (c : Int) (u0 : ℝ × ℝ) (ops : List (BoOp XR (GpState E))) (st st' : BoState XR (GpState E))
    (h : runOps P ops (newBo P c (Gp.new E u0)) = some st) (sf : StateFun XR (GpState E)) (reset : Bool) (fuel' : Nat)
    (ho : optimize P sf afun reset fuel' st = .ok st') (hdata : ∃ x ∈ st'.samples, x.length = d) (hearly : st'.currentIteration < N) :
    GpFits st'.model (st'.samples.zip st'.observations) ∧
    ∃ mean var w y, Predicts st'.model mean var ∧ bestObservation afun st' = some w ∧ afun w = XR.fin y ∧
      ∀ q, GridPt b d q → ratio * F (mean q) < y := by
  have hfit := C90_on_return hE hP c u0 ops st st' h sf afun reset fuel' ho
  refine ⟨hfit, ?_⟩
  obtain ⟨mean, var, hpr⟩ := fits_predicts hfit
  have hL : LawfulRel P.ops (GpRel (E := E)) := by rw [hP]; exact gpOps_lawful u junkC junkA hp
  have hT := runOps_inv (I := RelT GpRel) (fun op st h => runOp_rel hL op st h) ops _ st (newBo_relT c u0) h
  have hQ := optimize_rel hL sf afun reset fuel' st hT
  rw [ho] at hQ
  obtain ⟨s, tr, rfl, hs⟩ := stopped_early hstop ho hearly
  obtain ⟨w, y, h1⟩ := stopMaxPredicted_true hE hb hfuel hd hstart hr hF (s := s) hQ.inv.len hQ.model hdata hpr hs
  exact ⟨mean, var, w, y, hpr, h1⟩

open Classical in
/-- honest runs: certificate and error bars together -/
theorem stop_honest (hE : LawfulEnv E) (hP : P.ops = gpOps E u junkC junkA hp) (hh : P.hpPeriod ≤ 0) {b fuel d : Nat} (hb : 0 < b) (hfuel : b + 2 ≤ fuel)
    (hd : 0 < d) {start : BoState XR (GpState E) → List XR} (hstart : StartsInDim start) {ratio : ℝ} (hr : 0 ≤ ratio) {N : Int}
    (hstop : ∀ c ∈ P.stop, c = maxIterations N ∨ c = stopMaxPredicted b fuel start (XR.fin ratio))
    {B : ℝ} (h0 : 0 ≤ B) (hn : 2 ^ (-52 : ℤ) ≤ E.KP.noise) {prior f : List ℝ → ℝ}
    (hm : ∀ ys v, meanFn (E.M.new 1) ys 1 v 0 = prior v) (hf : InKernelBall (BaseK.mk' E.KP d : BaseK E.K).op prior d B f)
    {afun : List XR → XR} {F : List ℝ → ℝ} (hF : ∀ l, afun (l.map XR.fin) = XR.fin (F l)) (hF1 : ∀ y, F [y] = y)
    (c : Int) (u0 : ℝ × ℝ) (ops : List (BoOp XR (GpState E))) (hops : ∀ o ∈ ops, OptimizesOp d f afun o) (st st' : BoState XR (GpState E))
    (h : runOps P ops (newBo P c (Gp.new E u0)) = some st) (sf : StateFun XR (GpState E)) (hsf : Evaluates d f sf) (reset : Bool) (fuel' : Nat)
    (ho : optimize P sf afun reset fuel' st = .ok st') (hdata : ∃ x ∈ st'.samples, x.length = d) (hearly : st'.currentIteration < N) :
    ∃ mean var w y, Predicts st'.model mean var ∧ bestObservation afun st' = some w ∧ afun w = XR.fin y ∧
      (∀ q, GridPt b d q → ratio * F (mean q) < y) ∧
      (∀ v : List ℝ, v.length = d → f v ≤ F (mean v) + B * √(var v) ∧ F (mean v) - B * √(var v) ≤ f v) ∧
      (∀ v, v.map XR.fin ∈ st'.samples → var v ≤ 2 * E.KP.noise + 1e-8) ∧
      (∀ x, x.length = d → bestSample afun st' = some (x.map XR.fin) → y = f x) := by
  obtain ⟨-, mean, var, w, y, hpr, h1, h2, h3⟩ := C107_stop_certificate hE hP hb hfuel hd hstart hr hstop hF c u0 ops st st' h sf reset fuel' ho hdata hearly
  have hh' : runOps P (ops ++ [.optimize sf afun reset fuel']) (newBo P c (Gp.new E u0)) = some st' := runOps_snoc_ok ops h (by simp only [runOp]; exact ho)
  have hops2 : ∀ o ∈ ops ++ [.optimize sf afun reset fuel'], OptimizesOp d f afun o := by
    intro o ho
    rcases List.mem_append.1 ho with ho | ho
    · exact hops o ho
    · rw [List.mem_singleton.1 ho]; exact ⟨hsf, rfl⟩
  have hon := honest_expect (honest_history _ hops2 c _ st' hh')
  have hQ : RelQ FixRel st' := by
    have hL : LawfulRel ({ P with ops := { P.ops with optHp := (gpOps E u junkC junkA .none).optHp } } : BoParams XR (GpState E)).ops (FixRel (E := E)) := by
      simp only [hP]; exact gpOps_fixed u junkC junkA
    have h5 := optimize_rel hL sf afun reset fuel' st (fixed_history hP hh c u0 ops st h)
    have h6 := runOp_irrelevant hh (gpOps E u junkC junkA .none).optHp (.optimize sf afun reset fuel') st
    simp only [runOp] at h6
    rw [h6, ho] at h5
    exact h5
  rw [← hQ.inv.zip] at hon
  have hlen := hQ.inv.len
  have hd2 : ∃ p ∈ st'.samples.zip st'.observations, p.1.length = d := by
    obtain ⟨x, hx, hl⟩ := hdata
    obtain ⟨i, hi, rfl⟩ := List.getElem_of_mem hx
    have hi' : i < st'.observations.length := by rw [← hlen]; exact hi
    exact ⟨_, zip_mem hlen (List.getElem?_eq_getElem hi) (List.getElem?_eq_getElem hi'), hl⟩
  obtain ⟨e1, e2, -⟩ := honest_predictions hE h0 hn hm hf hF1 hQ.model hon hd2 hpr
  refine ⟨mean, var, w, y, hpr, h1, h2, h3, e1, fun v hv => ?_, fun x hx hb => ?_⟩
  · have hnoise : (0 : ℝ) < E.KP.noise := lt_of_lt_of_le (by positivity) hn
    have hc : 0 < ((st'.samples.zip st'.observations).map Prod.fst).count (v.map XR.fin) := by
      rw [List.map_fst_zip hlen.le]; exact List.count_pos_iff.2 hv
    have h4 := e2 v hc
    have h5 : (E.KP.noise + 1e-8) / ((((st'.samples.zip st'.observations).map Prod.fst).count (v.map XR.fin) : Nat) : ℝ) ≤ E.KP.noise + 1e-8 :=
      div_le_self (by positivity) (by exact_mod_cast hc)
    linarith
  · have := hon _ _ (zip_mem hlen hb h1) x hx rfl
    rw [this, show [XR.fin (f x)] = [f x].map XR.fin from rfl, hF, hF1] at h2
    exact (Xt.fin.inj h2).symm

/-- **C107**, for an objective `f` of kernel norm at most `B` around the prior mean, hyper-parameters not optimized: if the run stops early,
then at every grid point `ratio * (f - B * posterior standard deviation)` is less than the best observed value. -/
theorem C107_objective_bound (hE : LawfulEnv E) (hP : P.ops = gpOps E u junkC junkA hp) (hh : P.hpPeriod ≤ 0) {b fuel d : Nat} (hb : 0 < b)
    (hfuel : b + 2 ≤ fuel) (hd : 0 < d) {start : BoState XR (GpState E) → List XR} (hstart : StartsInDim start) {ratio : ℝ} (hr : 0 ≤ ratio) {N : Int}
    (hstop : ∀ c ∈ P.stop, c = maxIterations N ∨ c = stopMaxPredicted b fuel start (XR.fin ratio))
    {B : ℝ} (h0 : 0 ≤ B) (hn : 2 ^ (-52 : ℤ) ≤ E.KP.noise) {prior f : List ℝ → ℝ}
    (hm : ∀ ys v, meanFn (E.M.new 1) ys 1 v 0 = prior v) (hf : InKernelBall (BaseK.mk' E.KP d : BaseK E.K).op prior d B f)
    {afun : List XR → XR} {F : List ℝ → ℝ} (hF : ∀ l, afun (l.map XR.fin) = XR.fin (F l)) (hF1 : ∀ y, F [y] = y)
    (c : Int) (u0 : ℝ × ℝ) (ops : List (BoOp XR (GpState E))) (hops : ∀ o ∈ ops, OptimizesOp d f afun o) (st st' : BoState XR (GpState E))
    (h : runOps P ops (newBo P c (Gp.new E u0)) = some st) (sf : StateFun XR (GpState E)) (hsf : Evaluates d f sf) (reset : Bool) (fuel' : Nat)
    (ho : optimize P sf afun reset fuel' st = .ok st') (hdata : ∃ x ∈ st'.samples, x.length = d) (hearly : st'.currentIteration < N) :
    ∃ mean var w y, Predicts st'.model mean var ∧ bestObservation afun st' = some w ∧ afun w = XR.fin y ∧
      ∀ q, GridPt b d q → ratio * (f q - B * √(var q)) < y := by
  obtain ⟨mean, var, w, y, h1, h2, h3, h4, h5, -⟩ := stop_honest hE hP hh hb hfuel hd hstart hr hstop h0 hn hm hf hF hF1 c u0 ops hops st st' h sf hsf reset fuel' ho hdata hearly
  refine ⟨mean, var, w, y, h1, h2, h3, fun q hq => lt_of_le_of_lt (mul_le_mul_of_nonneg_left ?_ hr) (h4 q hq)⟩
  linarith [(h5 q hq.1).1]

/-- **C107**: with `ratio < 1` the criterion is of no use for objectives with negative values.  If it stops such a run and the best point found
is a grid point, then the best value `y` is positive or tiny: `(1 - ratio) y > - ratio B sqrt(2 noise + 1e-8)`. -/
theorem C107_never_stops_below_zero (hE : LawfulEnv E) (hP : P.ops = gpOps E u junkC junkA hp) (hh : P.hpPeriod ≤ 0) {b fuel d : Nat} (hb : 0 < b)
    (hfuel : b + 2 ≤ fuel) (hd : 0 < d) {start : BoState XR (GpState E) → List XR} (hstart : StartsInDim start) {ratio : ℝ} (hr : 0 ≤ ratio) {N : Int}
    (hstop : ∀ c ∈ P.stop, c = maxIterations N ∨ c = stopMaxPredicted b fuel start (XR.fin ratio))
    {B : ℝ} (h0 : 0 ≤ B) (hn : 2 ^ (-52 : ℤ) ≤ E.KP.noise) {prior f : List ℝ → ℝ}
    (hm : ∀ ys v, meanFn (E.M.new 1) ys 1 v 0 = prior v) (hf : InKernelBall (BaseK.mk' E.KP d : BaseK E.K).op prior d B f)
    {afun : List XR → XR} {F : List ℝ → ℝ} (hF : ∀ l, afun (l.map XR.fin) = XR.fin (F l)) (hF1 : ∀ y, F [y] = y)
    (c : Int) (u0 : ℝ × ℝ) (ops : List (BoOp XR (GpState E))) (hops : ∀ o ∈ ops, OptimizesOp d f afun o) (st st' : BoState XR (GpState E))
    (h : runOps P ops (newBo P c (Gp.new E u0)) = some st) (sf : StateFun XR (GpState E)) (hsf : Evaluates d f sf) (reset : Bool) (fuel' : Nat)
    (ho : optimize P sf afun reset fuel' st = .ok st') (hearly : st'.currentIteration < N)
    (x : List ℝ) (hx : bestSample afun st' = some (x.map XR.fin)) (hgrid : GridPt b d x) :
    -(ratio * B * √(2 * E.KP.noise + 1e-8)) < (1 - ratio) * f x := by
  have hmem : x.map XR.fin ∈ st'.samples := List.mem_of_getElem? hx
  obtain ⟨mean, var, w, y, h1, h2, h3, h4, h5, h6, h7⟩ := stop_honest hE hP hh hb hfuel hd hstart hr hstop h0 hn hm hf hF hF1 c u0 ops hops st st' h sf hsf reset fuel' ho
    ⟨_, hmem, by simpa using hgrid.1⟩ hearly
  have e1 := (h5 x hgrid.1).1
  have e2 : B * √(var x) ≤ B * √(2 * E.KP.noise + 1e-8) := mul_le_mul_of_nonneg_left (Real.sqrt_le_sqrt (h6 x hmem)) h0
  have e3 := h4 x hgrid
  rw [h7 x hgrid.1 hx] at e3
  have e4 : ratio * (f x - B * √(2 * E.KP.noise + 1e-8)) ≤ ratio * F (mean x) := mul_le_mul_of_nonneg_left (by linarith) hr
  nlinarith

/-! ### The hypotheses are met

A run that stops early: constant objective 1, prior mean 1, one initial point, `ratio = 1/2`, a grid of 5 points. -/

noncomputable def exStopEnv : GpEnv := ⟨expKernel 1 1, ⟨0.01, false⟩, constMean 1, llt_contract_satisfiable.choose⟩

theorem exStopEnv_lawful : LawfulEnv exStopEnv :=
  lawfulEnv_std (.exp one_pos one_pos) (by show (0:ℝ) ≤ 0.01; norm_num) llt_contract_satisfiable.choose_spec

noncomputable def exStopStart (s : BoState XR (GpState exStopEnv)) : List XR := List.replicate s.model.dimIn.toNat (XR.fin (1 / 2))

theorem exStopStart_dim : StartsInDim exStopStart := fun _ => List.length_replicate ..

noncomputable def exStopP : BoParams XR (GpState exStopEnv) where
  bounded := true
  statsEnabled := true
  hpPeriod := -1
  ops := gpOps exStopEnv (fun _ _ => (1, 2)) (fun _ _ _ _ _ => 7) (fun _ _ _ _ _ => 7) .none
  initPts := fun _ d => some [List.replicate d (XR.fin 1)]
  acqui := ucbObj 3
  acquiOpt := fun _ f x b => (gridSearch 4 6).toRes f x b
  startPt := fun _ d => List.replicate d (XR.fin (1/2))
  stop := [maxIterations 10, stopMaxPredicted 4 6 exStopStart (XR.fin (1 / 2))]
  stats := [statSamples, statObservations]

noncomputable def exStopF : StateFun XR (GpState exStopEnv) where
  dimIn := 1
  dimOut := 1
  call := fun _ _ => .ret [XR.fin 1]

theorem exStop_evaluates : Evaluates 1 (fun _ => 1) exStopF := ⟨rfl, fun _ _ _ => rfl⟩

theorem exStop_ball : InKernelBall (BaseK.mk' exStopEnv.KP 1 : BaseK exStopEnv.K).op (fun _ => 1) 1 0 (fun _ => 1) :=
  ⟨0, fun _ => [], fun _ => 0, fun i => i.elim0, fun v _ => by simp, by simp⟩

theorem exStop_run : ∃ st', optimize exStopP exStopF (fun v => v.headD (XR.fin 0)) true 12 (newBo exStopP 0 (Gp.new exStopEnv (0, 0))) = .ok st' ∧
    st'.currentIteration = 0 ∧ st'.samples = [[1].map XR.fin] ∧ st'.observations = [[XR.fin 1]] := by
  have hE := exStopEnv_lawful
  have hfin : isNanOrInf [XR.fin 1] = false := by rfl
  have h1 : boInit exStopP exStopF true ((newBo exStopP 0 (Gp.new exStopEnv (0, 0))).push (.start true)) =
      .ok { newBo exStopP 0 (Gp.new exStopEnv (0, 0)) with
        currentIteration := 0, totalIterations := 0, samples := [[XR.fin 1]], observations := [[XR.fin 1]]
        trace := [.start true, .call [XR.fin 1] (.ret [XR.fin 1])] } := by
    simp only [boInit, exStopP, exStopF, if_true, evalAll, evalAndAdd, addNewSample, BoState.push, newBo, List.replicate, hfin, Res.andThen]
    rfl
  have hd : DataSet [[(1:ℝ)]] [[1]] 1 1 := ⟨by simp, by simp, by simp, by simp, by norm_num, by norm_num⟩
  obtain ⟨m, hm, -⟩ := track_compute hE (fun _ _ => 7) (track_new (E := exStopEnv) (0, 0)) hd true
  have hc : exStopP.ops.compute [[XR.fin 1]] [[XR.fin 1]] (Gp.new exStopEnv (0, 0)) = .ok m := by
    have e1 : realsL? [[XR.fin 1]] = some [[1]] := rfl
    simp only [exStopP, gpOps, boGpCompute, e1, Option.bind_some, hm, gpRes]
  have hrel : FixRel m ([[XR.fin 1]].zip [[XR.fin 1]]) :=
    (gpOps_fixed (E := exStopEnv) (fun _ _ => (1, 2)) (fun _ _ _ _ _ => 7) (fun _ _ _ _ _ => 7)).compute _ _ _ [] m
      ⟨⟨[], [], rfl, rfl, GpReach.new (0, 0)⟩, Or.inl rfl, Or.inl rfl⟩ rfl hc
  obtain ⟨mean, var, hpr⟩ := fits_predicts (hrel.1.fits hE)
  have hmean : ∀ v : List ℝ, v.length = 1 → (mean v).headD 0 = 1 := by
    have hon : HonestData 1 (fun _ => 1) ([[XR.fin 1]].zip [[XR.fin 1]]) := by
      intro s w hsw v _ _
      simp only [List.zip_cons_cons, List.zip_nil_right, List.mem_singleton, Prod.mk.injEq] at hsw
      exact hsw.2
    obtain ⟨h2, -⟩ := honest_predictions hE (le_refl (0 : ℝ)) (by show (2 : ℝ) ^ (-52 : ℤ) ≤ 0.01; norm_num) (prior := fun _ => 1) (fun ys v => by rfl) exStop_ball
      (F := fun l => l.headD 0) (fun y => rfl) hrel hon ⟨_, List.mem_singleton.2 rfl, rfl⟩ hpr
    intro v hv
    have := h2 v hv
    linarith [this.1, this.2]
  set s1 : BoState XR (GpState exStopEnv) := { newBo exStopP 0 (Gp.new exStopEnv (0, 0)) with
        currentIteration := 0, totalIterations := 0, samples := [[XR.fin 1]], observations := [[XR.fin 1]], model := m
        trace := [.start true, .call [XR.fin 1] (.ret [XR.fin 1])] } with hs1
  obtain ⟨w, y, a, h2, h3, h4, h5⟩ := C107_decides hE (b := 4) (fuel := 6) (by norm_num) (by norm_num) one_pos exStopStart_dim (ratio := 1 / 2) (by norm_num)
    (afun := fun v => v.headD (XR.fin 0)) (F := fun l => l.headD 0) (fun l => by cases l <;> rfl) (s := s1) rfl hrel.1 ⟨_, List.mem_singleton.2 rfl, rfl⟩ hpr
    (fun q hq => by rw [hmean q hq.1]; norm_num)
  have hw : w = [XR.fin 1] := by
    have : w ∈ s1.observations := bestObservation_some h2
    exact List.mem_singleton.1 this
  have hy : y = 1 := by rw [hw] at h3; exact (Xt.fin.inj h3).symm
  have ha : a = true := h5.2 fun q hq => by rw [hmean q hq.1, hy]; norm_num
  have hst : boStop exStopP (fun v => v.headD (XR.fin 0)) s1 = some (true, { s1 with trace := s1.trace ++ [.asked 0 false] ++ [.asked 1 true] }) := by
    unfold boStop
    have e1 : (maxIterations 10 s1 (fun v : List XR => v.headD (XR.fin 0))) = some false := rfl
    simp only [exStopP, chainCriteria, Bool.false_eq_true, if_false, e1, h4, ha]
  refine ⟨{ s1 with trace := s1.trace ++ [.asked 0 false] ++ [.asked 1 true] }, ?_, rfl, rfl, rfl⟩
  unfold optimize
  simp only [h1]
  have hc' : boModelInit exStopP exStopF { newBo exStopP 0 (Gp.new exStopEnv (0, 0)) with
        currentIteration := 0, totalIterations := 0, samples := [[XR.fin 1]], observations := [[XR.fin 1]]
        trace := [.start true, .call [XR.fin 1] (.ret [XR.fin 1])] } = .ok s1 := by
    unfold boModelInit
    simp only [List.isEmpty_cons, Bool.false_eq_true, if_false]
    rw [show exStopP.ops.compute [[XR.fin 1]] [[XR.fin 1]] (newBo exStopP 0 (Gp.new exStopEnv (0, 0))).model = .ok m from hc]
    rfl
  have hok : ∀ (s : BoState XR (GpState exStopEnv)) (k : BoState XR (GpState exStopEnv) → Res (BoState XR (GpState exStopEnv))), (Res.ok s).andThen k = k s :=
    fun _ _ => rfl
  rw [hok, hc', hok]
  simp only [boLoop, hst]

/-- so the best point is a grid point, and the run stopped before its 10 iterations -/
example : ∃ st', optimize exStopP exStopF (fun v => v.headD (XR.fin 0)) true 12 (newBo exStopP 0 (Gp.new exStopEnv (0, 0))) = .ok st' ∧ st'.currentIteration < 10 ∧
    (∃ mean var w y, Predicts st'.model mean var ∧ bestObservation (fun v => v.headD (XR.fin 0)) st' = some w ∧ w.headD (XR.fin 0) = XR.fin y ∧
      ∀ q, GridPt 4 1 q → 1 / 2 * (1 - 0 * √(var q)) < y) ∧
    -(1 / 2 * 0 * √(2 * 0.01 + 1e-8)) < (1 - 1 / 2) * (1 : ℝ) := by
  obtain ⟨st', h1, h2, h3, h4⟩ := exStop_run
  have hstop : ∀ c ∈ exStopP.stop, c = maxIterations 10 ∨ c = stopMaxPredicted 4 6 exStopStart (XR.fin (1 / 2)) := by
    intro c hc; simpa [exStopP] using hc
  refine ⟨st', h1, by rw [h2]; norm_num, ?_, ?_⟩
  · exact C107_objective_bound exStopEnv_lawful rfl (by show (-1 : Int) ≤ 0; norm_num) (by norm_num) (by norm_num) one_pos exStopStart_dim (by norm_num) hstop
      (le_refl 0) (by show (2 : ℝ) ^ (-52 : ℤ) ≤ 0.01; norm_num) (prior := fun _ => 1) (fun ys v => by rfl) exStop_ball (F := fun l => l.headD 0)
      (fun l => by cases l <;> rfl) (fun y => rfl) 0 (0, 0) [] (by simp) _ st' rfl exStopF exStop_evaluates true 12 h1
      ⟨_, by rw [h3]; exact List.mem_singleton.2 rfl, rfl⟩ (by rw [h2]; norm_num)
  · exact C107_never_stops_below_zero exStopEnv_lawful rfl (by show (-1 : Int) ≤ 0; norm_num) (by norm_num) (by norm_num) one_pos exStopStart_dim (by norm_num) hstop
      (le_refl 0) (by show (2 : ℝ) ^ (-52 : ℤ) ≤ 0.01; norm_num) (prior := fun _ => 1) (fun ys v => by rfl) exStop_ball (F := fun l => l.headD 0)
      (fun l => by cases l <;> rfl) (fun y => rfl) 0 (0, 0) [] (by simp) _ st' rfl exStopF exStop_evaluates true 12 h1 (by rw [h2]; norm_num) [1]
      (by simp only [bestSample, h4, h3]; rfl) ⟨rfl, fun c hc => ⟨4, le_refl _, by rw [List.mem_singleton.1 hc]; norm_num⟩⟩

end Limbo
