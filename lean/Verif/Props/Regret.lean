import Verif.Lemmas.BoHonest
import Verif.Props.Confidence
import Verif.Props.BoAcqui

/-!
C104: convergence of `BOptimizer` with `UCB`, `GridSearch` and a GP whose hyper-parameters are not optimized, for objectives of bounded
kernel norm.
-/

namespace Limbo

open Gp

variable {E : GpEnv} {u : Nat → Nat → ℝ × ℝ} {junkC : List (List ℝ) → List (List ℝ) → GpState E → Nat → Nat → ℝ}
  {junkA : List ℝ → List ℝ → GpState E → Nat → Nat → ℝ} {hp : HpFunctor E} {P : BoParams XR (GpState E)}

/-- what honest evaluations look like in a trace -/
def HonestEv (d : Nat) (f : List ℝ → ℝ) : Event XR (GpState E) → Prop
  | .call x r => ∀ v : List ℝ, v.length = d → x = v.map XR.fin → r = .ret [XR.fin (f v)]
  | .given s w => ∀ v : List ℝ, v.length = d → s = v.map XR.fin → w = [XR.fin (f v)]
  | _ => True

theorem honest_history {d : Nat} {f : List ℝ → ℝ} {afun : List XR → XR} (ops : List (BoOp XR (GpState E))) (hops : ∀ o ∈ ops, OptimizesOp d f afun o)
    (c : Int) (g : GpState E) (st : BoState XR (GpState E)) (h : runOps P ops (newBo P c g) = some st) : ∀ e ∈ st.trace, HonestEv d f e := by
  refine runOps_allEv (H := HonestEv d f) (fun e he => ?_) (OptimizesOp d f afun) ?_ ?_ ?_ ops hops _ st (by intro e he; simp [newBo] at he) h
  · cases e <;> first | trivial | exact he.elim
  · rintro sf a r n ⟨⟨-, h1⟩, -⟩ tr x v hv rfl; exact h1 tr v hv
  · intro s w h1; exact h1
  · rintro sf y ⟨-, h1⟩ tr x v hv rfl; exact h1 tr v hv

/-- pairs that are values of `f` -/
def HonestData (d : Nat) (f : List ℝ → ℝ) (data : List (List XR × List XR)) : Prop :=
  ∀ s w, (s, w) ∈ data → ∀ v : List ℝ, v.length = d → s = v.map XR.fin → w = [XR.fin (f v)]

theorem honest_expect {d : Nat} {f : List ℝ → ℝ} {tr : List (Event XR (GpState E))} (h : ∀ e ∈ tr, HonestEv d f e) : HonestData d f (expect tr) := by
  intro s w hm v hv hs
  rcases mem_expect hm with hc | hc
  · have : HonestEv d f (Event.call s (.ret w) : Event XR (GpState E)) := h _ hc
    exact CallRes.ret.inj (this v hv hs)
  · have : HonestEv d f (Event.given s w : Event XR (GpState E)) := h _ hc
    exact this v hv hs

open Classical in
/-- what a GP with honest data predicts -/
theorem honest_predictions (hE : LawfulEnv E) {d : Nat} {alpha : ℝ} (h0 : 0 ≤ alpha) (hn : 2 ^ (-52 : ℤ) ≤ E.KP.noise) {prior f : List ℝ → ℝ}
    (hm : ∀ ys v, meanFn (E.M.new 1) ys 1 v 0 = prior v) (hf : InKernelBall (BaseK.mk' E.KP d : BaseK E.K).op prior d alpha f)
    {F : List ℝ → ℝ} (hF1 : ∀ y, F [y] = y) {g : GpState E} {data : List (List XR × List XR)} (hrel : FixRel g data) (hon : HonestData d f data)
    (hdata : ∃ p ∈ data, p.1.length = d) {mean : List ℝ → List ℝ} {var : List ℝ → ℝ} (hpr : Predicts g mean var) :
    (∀ v : List ℝ, v.length = d → f v ≤ F (mean v) + alpha * √(var v) ∧ F (mean v) - alpha * √(var v) ≤ f v) ∧
    (∀ v, 0 < (data.map Prod.fst).count (v.map XR.fin) →
        var v ≤ E.KP.noise + (E.KP.noise + 1e-8) / (data.map Prod.fst).count (v.map XR.fin)) ∧
    (∀ v : List ℝ, v.length = d → ∀ (Q : List XR → Prop) (w : ℝ), 0 ≤ w →
      (∀ x : List ℝ, x.length = d → Q (x.map XR.fin) → (BaseK.mk' E.KP d : BaseK E.K).op x x - 2 * (BaseK.mk' E.KP d : BaseK E.K).op x v +
        (BaseK.mk' E.KP d : BaseK E.K).op v v ≤ w) →
      0 < (data.map Prod.fst).countP (fun x => decide (Q x)) →
        var v ≤ E.KP.noise + (E.KP.noise + 1e-8) / (data.map Prod.fst).countP (fun x => decide (Q x)) + w) ∧
    (∀ v : List ℝ, v.length = d → var v ≤ (BaseK.mk' E.KP d : BaseK E.K).op v v + E.KP.noise) := by
  obtain ⟨hrel, hk, hmf⟩ := hrel
  obtain ⟨⟨s1, w1⟩, hp1, hl1⟩ := hdata
  obtain ⟨hdi, hdo⟩ := hrel.dims hE _ hp1
  simp only at hl1 hdi hdo
  obtain ⟨xs, ys, hlen, hexp, hreach⟩ := hrel
  have hne : xs ≠ [] := by rintro rfl; rw [hexp] at hp1; simp [finPairs] at hp1
  obtain ⟨din, dout, hh'⟩ := (hreach.tracks hE).ne hne
  have hdin : din = d := by have := hh'.dimIn; rw [hdi, hl1] at this; exact_mod_cast this.symm
  subst hdin
  -- all data are values of `f`
  have hpair : ∀ (i : Nat) a y, xs[i]? = some a → ys[i]? = some y → y = [f a] := by
    intro i a y ha hy
    have hmem : (a.map XR.fin, y.map XR.fin) ∈ data := by
      rw [hexp, finPairs, List.mem_map]
      exact ⟨(a, y), List.mem_of_getElem? (List.getElem?_zip_eq_some.2 ⟨ha, hy⟩), rfl⟩
    have hal : a.length = din := hh'.data.inputs a (List.mem_of_getElem? ha)
    have : y.map XR.fin = [f a].map XR.fin := hon _ _ hmem a hal rfl
    exact List.map_injective_iff.2 (fun a b h => Xt.fin.inj h) this
  have hdout : dout = 1 := by
    obtain ⟨y, hy⟩ : ∃ y, ys[0]? = some y := ⟨_, List.getElem?_eq_getElem (by rw [← hlen]; exact List.length_pos_iff.2 hne)⟩
    obtain ⟨a, ha⟩ : ∃ a, xs[0]? = some a := ⟨_, List.getElem?_eq_getElem (List.length_pos_iff.2 hne)⟩
    have := hh'.data.outputs y (List.mem_of_getElem? hy)
    rw [hpair 0 a y ha hy] at this
    exact this.symm
  subst hdout
  have hkf : g.kf = BaseK.mk' E.KP din := by
    rcases hk with hk | hk
    · rw [hh'.dimIn] at hk; omega
    · rw [hk, hh'.dimIn]; rfl
  have hmfe : g.mf = E.M.new 1 := by
    rcases hmf with hk | hk
    · rw [hh'.dimOut] at hk; omega
    · rw [hk, hh'.dimOut]; rfl
  have hup : (⟨xs, ys, true, true, true, true⟩ : GpAbs).UpToDate := ⟨hne, rfl, rfl, rfl⟩
  have hball : InKernelBall g.kf.op (fun v => meanFn g.mf ys 1 v 0) din alpha f := by
    have : (fun v => meanFn g.mf ys 1 v 0) = prior := by funext v; rw [hmfe]; exact hm ys v
    rw [this, hkf]; exact hf
  refine ⟨fun v hv => ?_, fun v hv => ?_, fun v hvd Q w hw hQ hv => ?_, fun v hv => ?_⟩
  · obtain ⟨m, var', h1, h2, h3⟩ := C103_error_bars hE hreach hup hh'.data 0 one_pos alpha h0 f hball
      (fun i a y ha hy => by rw [hpair i a y ha hy]; rfl) v hv (by rw [hkf]; exact hn)
    obtain ⟨m2, h4, h5⟩ := hpr v
    rw [h1, Option.some.injEq, Prod.mk.injEq] at h4
    have h6 : mean v = [m 0] := by
      rw [h5, h4.1, hh'.dimOut]
      rfl
    rw [h6, hF1, ← h4.2]
    exact ⟨h2, h3⟩
  · have hcnt : (data.map Prod.fst).count (v.map XR.fin) = xs.count v := by
      rw [hexp, finPairs, List.map_map]
      have : (Prod.fst ∘ fun p : List ℝ × List ℝ => (p.1.map XR.fin, p.2.map XR.fin)) = (List.map XR.fin) ∘ Prod.fst := rfl
      rw [this, ← List.map_map, List.map_fst_zip (le_of_eq hlen)]
      exact List.count_map_of_injective (β := List XR) _ _ (List.map_injective_iff.2 (fun a b h => Xt.fin.inj h)) _
    rw [hcnt] at hv ⊢
    obtain ⟨m, var', h1, h2, -⟩ := C103_at_observed_points hE hreach hup hh'.data v (List.count_pos_iff.1 hv)
    obtain ⟨m2, h4, -⟩ := hpr v
    rw [h1, Option.some.injEq, Prod.mk.injEq] at h4
    rw [← h4.2]
    rw [hkf] at h2
    exact h2
  · have hcnt : (data.map Prod.fst).countP (fun x => decide (Q x)) = xs.countP (fun x => decide (Q (x.map XR.fin))) := by
      rw [hexp, finPairs, List.map_map]
      have : (Prod.fst ∘ fun p : List ℝ × List ℝ => (p.1.map XR.fin, p.2.map XR.fin)) = (List.map XR.fin) ∘ Prod.fst := rfl
      rw [this, ← List.map_map, List.map_fst_zip (le_of_eq hlen), List.countP_map]
      rfl
    rw [hcnt] at hv ⊢
    obtain ⟨m, var', h1, h2, -⟩ := C103_near_observed_points hE hreach hup hh'.data v hvd (fun x => Q (x.map XR.fin)) hw
      (by rw [hkf]; exact hQ) rfl hv
    obtain ⟨m2, h4, -⟩ := hpr v
    rw [h1, Option.some.injEq, Prod.mk.injEq] at h4
    rw [← h4.2]
    rw [hkf] at h2
    exact h2
  · obtain ⟨r, h1, -, h2⟩ := C29_variance_bounds hE hreach rfl v (by rw [hh'.dimIn, hv])
    obtain ⟨m2, h4, -⟩ := hpr v
    have h5 : r = var v := by
      have h6 := query_mu h4; rw [C28_query_is_mu_sigma, h1, h6, Option.bind_some, Option.map_some, Option.some.injEq] at h4
      exact (Prod.mk.inj h4).2
    rw [← h5]
    rw [hkf] at h2
    exact h2

/-- the model and its functors at the moment of a decision -/
theorem fixed_history (hP : P.ops = gpOps E u junkC junkA hp) (hh : P.hpPeriod ≤ 0) (c : Int) (u0 : ℝ × ℝ) (ops : List (BoOp XR (GpState E)))
    (st : BoState XR (GpState E)) (h : runOps P ops (newBo P c (Gp.new E u0)) = some st) : RelT FixRel st := by
  have hL : LawfulRel ({ P with ops := { P.ops with optHp := (gpOps E u junkC junkA .none).optHp } } : BoParams XR (GpState E)).ops (FixRel (E := E)) := by
    simp only [hP]; exact gpOps_fixed u junkC junkA
  have h' := h
  rw [← runOps_irrelevant hh (gpOps E u junkC junkA .none).optHp] at h'
  have h1 : RelT FixRel (newBo P c (Gp.new E u0)) := ⟨newBo_inv P c _, by intro pre e hp; simp [newBo] at hp, [],
    ⟨[], [], rfl, rfl, GpReach.new u0⟩, Or.inl rfl, Or.inl rfl⟩
  exact runOps_inv (I := RelT FixRel) (fun op st h => runOp_rel hL op st h) ops _ st h1 h'

open Classical in
/-- one decision -/
theorem ucb_decision (hE : LawfulEnv E) (hP : P.ops = gpOps E u junkC junkA hp) (hh : P.hpPeriod ≤ 0) {b fuel d : Nat} (hG : UsesGridSearch P b fuel)
    (hd : 0 < d) {alpha : ℝ} (h0 : 0 ≤ alpha) (hA : P.acqui = ucbObj alpha) (hn : 2 ^ (-52 : ℤ) ≤ E.KP.noise) {prior f : List ℝ → ℝ}
    (hm : ∀ ys v, meanFn (E.M.new 1) ys 1 v 0 = prior v) (hf : InKernelBall (BaseK.mk' E.KP d : BaseK E.K).op prior d alpha f)
    {afun : List XR → XR} {F : List ℝ → ℝ} (hF : ∀ l, afun (l.map XR.fin) = XR.fin (F l)) (hF1 : ∀ y, F [y] = y)
    (c : Int) (u0 : ℝ × ℝ) (ops : List (BoOp XR (GpState E))) (hops : ∀ o ∈ ops, OptimizesOp d f afun o) (st : BoState XR (GpState E))
    (h : runOps P ops (newBo P c (Gp.new E u0)) = some st) (pre rest : List (Event XR (GpState E))) (g : GpState E) (it : Int)
    (htr : st.trace = pre ++ .acqui g it :: rest) (hdata : ∃ p ∈ expect pre, p.1.length = d) :
    ∃ x r post mean var, rest = .call (x.map XR.fin) r :: post ∧ GridPt b d x ∧ Predicts g mean var ∧
      (∀ q, GridPt b d q → f q ≤ f x + 2 * alpha * √(var x)) ∧
      (∀ v, 0 < ((expect pre).map Prod.fst).count (v.map XR.fin) →
        var v ≤ E.KP.noise + (E.KP.noise + 1e-8) / ((expect pre).map Prod.fst).count (v.map XR.fin)) := by
  have hops' : ∀ sf a r n, BoOp.optimize sf a r n ∈ ops → a = afun ∧ sf.dimIn = d := fun sf a r n hmem => ⟨(hops _ hmem).2, (hops _ hmem).1.1⟩
  obtain ⟨-, x, r, post, hr, hx, mean, var, hpr, hmax⟩ := C93_ucb hE hP hG hd alpha hA c u0 ops afun F hF hops' st h pre rest g it htr
  have hrel : FixRel g (expect pre) := (fixed_history hP hh c u0 ops st h).tr pre (.acqui g it) ⟨rest, by rw [htr]; simp⟩
  have hon : HonestData d f (expect pre) := honest_expect fun e he => honest_history ops hops c _ st h e (by rw [htr]; exact List.mem_append_left _ he)
  obtain ⟨hbars, hcnt, -⟩ := honest_predictions hE h0 hn hm hf hF1 hrel hon hdata hpr
  refine ⟨x, r, post, mean, var, hr, hx, hpr, fun q hq => ?_, hcnt⟩
  have h1 := (hbars q hq.1).1
  have h2 := (hbars x hx.1).2
  have h3 := hmax q hq
  linarith

/-- **C104**: each decision.  The data are values of a function `f` whose distance from the prior mean has kernel norm at most the `alpha` of UCB.
Whenever there are data, the next point `x` evaluated is one of the grid, and the best value of `f` on the grid exceeds `f x` by at most
`2 alpha` reported standard deviations at `x`. -/
theorem C104_next_point (hE : LawfulEnv E) (hP : P.ops = gpOps E u junkC junkA hp) (hh : P.hpPeriod ≤ 0) {b fuel d : Nat} (hG : UsesGridSearch P b fuel)
    (hd : 0 < d) {alpha : ℝ} (h0 : 0 ≤ alpha) (hA : P.acqui = ucbObj alpha) (hn : 2 ^ (-52 : ℤ) ≤ E.KP.noise) {prior f : List ℝ → ℝ}
    (hm : ∀ ys v, meanFn (E.M.new 1) ys 1 v 0 = prior v) (hf : InKernelBall (BaseK.mk' E.KP d : BaseK E.K).op prior d alpha f)
    {afun : List XR → XR} {F : List ℝ → ℝ} (hF : ∀ l, afun (l.map XR.fin) = XR.fin (F l)) (hF1 : ∀ y, F [y] = y)
    (c : Int) (u0 : ℝ × ℝ) (ops : List (BoOp XR (GpState E))) (hops : ∀ o ∈ ops, OptimizesOp d f afun o) (st : BoState XR (GpState E))
    (h : runOps P ops (newBo P c (Gp.new E u0)) = some st) (pre rest : List (Event XR (GpState E))) (g : GpState E) (it : Int)
    (htr : st.trace = pre ++ .acqui g it :: rest) (hdata : ∃ p ∈ expect pre, p.1.length = d) :
    ∃ x r post mean var, rest = .call (x.map XR.fin) r :: post ∧ GridPt b d x ∧ Predicts g mean var ∧
      ∀ q, GridPt b d q → f q ≤ f x + 2 * alpha * √(var x) := by
  obtain ⟨x, r, post, mean, var, h1, h2, h3, h4, -⟩ := ucb_decision hE hP hh hG hd h0 hA hn hm hf hF hF1 c u0 ops hops st h pre rest g it htr hdata
  exact ⟨x, r, post, mean, var, h1, h2, h3, h4⟩

open Classical in
/-- the grid is finite -/
theorem gridPt_finset (b d : Nat) : ∃ G : Finset (List XR), G.card ≤ (b + 1) ^ d ∧ ∀ v, GridPt b d v → v.map XR.fin ∈ G := by
  refine ⟨Finset.univ.image fun k : Fin d → Fin (b + 1) => List.ofFn fun i => XR.fin ((k i : ℕ) / (b : ℝ)), ?_, ?_⟩
  · refine Finset.card_image_le.trans (le_of_eq ?_)
    simp
  · rintro v ⟨hl, hv⟩
    subst hl
    choose k hk using fun i : Fin v.length => hv v[i] (List.getElem_mem _)
    refine Finset.mem_image.2 ⟨fun i => ⟨k i, by have := (hk i).1; omega⟩, Finset.mem_univ _, ?_⟩
    apply List.ext_getElem (by simp)
    intro i h1 h2
    simp only [List.getElem_ofFn, List.getElem_map]
    rw [← (hk ⟨i, by simpa using h1⟩).2]
    rfl

/-- **C104**: convergence.  If `optimize` returns after more than `n (b + 1)^d` iterations on a grid of `(b + 1)^d` points, the best observation is
within `2 alpha sqrt(noise + (noise + 1e-8) / n)` of the best value of `f` on the grid. -/
theorem C104_converges (hE : LawfulEnv E) (hP : P.ops = gpOps E u junkC junkA hp) (hh : P.hpPeriod ≤ 0) {b fuel d : Nat} (hG : UsesGridSearch P b fuel)
    (hd : 0 < d) {alpha : ℝ} (h0 : 0 ≤ alpha) (hA : P.acqui = ucbObj alpha) (hn : 2 ^ (-52 : ℤ) ≤ E.KP.noise) {prior f : List ℝ → ℝ}
    (hm : ∀ ys v, meanFn (E.M.new 1) ys 1 v 0 = prior v) (hf : InKernelBall (BaseK.mk' E.KP d : BaseK E.K).op prior d alpha f)
    {afun : List XR → XR} {F : List ℝ → ℝ} (hF : ∀ l, afun (l.map XR.fin) = XR.fin (F l)) (hF1 : ∀ y, F [y] = y)
    (c : Int) (u0 : ℝ × ℝ) (ops : List (BoOp XR (GpState E))) (hops : ∀ o ∈ ops, OptimizesOp d f afun o) (st : BoState XR (GpState E))
    (h : runOps P ops (newBo P c (Gp.new E u0)) = some st)
    (N : Int) (hN : P.stop = [maxIterations N]) (sf : StateFun XR (GpState E)) (hsf : Evaluates d f sf) (reset : Bool) (fuel' : Nat)
    (st' : BoState XR (GpState E)) (hrun : optimize P sf afun reset fuel' st = .ok st') (n : Nat) (hn0 : 0 < n) (hnN : ((n * (b + 1) ^ d : Nat) : Int) < N) :
    ∃ w y, bestObservation afun st' = some w ∧ afun w = XR.fin y ∧
      ∀ q, GridPt b d q → f q ≤ y + 2 * alpha * √(E.KP.noise + (E.KP.noise + 1e-8) / n) := by
  classical
  have h' : runOps P (ops ++ [.optimize sf afun reset fuel']) (newBo P c (Gp.new E u0)) = some st' := by
    have : ∀ (os : List (BoOp XR (GpState E))) (s : BoState XR (GpState E)), runOps P os s = some st → runOps P (os ++ [.optimize sf afun reset fuel']) s = some st' := by
      intro os
      induction os with
      | nil => intro s hs; simp only [runOps, Option.some.injEq] at hs; subst hs; simp [runOps, runOp, hrun]
      | cons o os ih =>
        intro s hs
        simp only [List.cons_append, runOps] at hs ⊢
        cases hr : runOp P o s with
        | ok q => rw [hr] at hs; exact ih q hs
        | throw e q => rw [hr] at hs; exact ih q hs
        | ub => rw [hr] at hs; cases hs
        | diverge => rw [hr] at hs; cases hs
    exact this ops _ h
  have hops2 : ∀ o ∈ ops ++ [.optimize sf afun reset fuel'], OptimizesOp d f afun o := by
    intro o ho
    rcases List.mem_append.1 ho with ho | ho
    · exact hops o ho
    · rw [List.mem_singleton.1 ho]; exact ⟨hsf, rfl⟩
  have hops' : ∀ s a r k, BoOp.optimize s a r k ∈ ops ++ [.optimize sf afun reset fuel'] → a = afun ∧ s.dimIn = d :=
    fun s a r k hmem => ⟨(hops2 _ hmem).2, (hops2 _ hmem).1.1⟩
  have hon := honest_history _ hops2 c _ st' h'
  -- the iterations of this run
  obtain ⟨pts, vs0, m0, k, -, -, -, -, -, hl⟩ := optimize_ok hrun
  obtain ⟨seg, xs, vs, hs⟩ := hl.sum
  have hk := hl.count_maxIterations hN
  have hcur : (initState reset st).currentIteration = 0 := by cases reset <;> rfl
  simp only [hcur] at hk
  have hbase : (initState reset st).trace = st.trace ++ [.start reset] := by cases reset <;> rfl
  have htr := hs.trace
  simp only [hbase] at htr
  have hquiet : Event.start true ∉ seg := by
    have hg := optimize_grows (fun _ => True) P sf afun reset fuel' (fun _ _ _ _ _ => trivial) (fun _ _ _ _ => trivial) st
    rw [hrun] at hg
    obtain ⟨sg, h1, h2⟩ := hg
    have h3 : sg = retEvents pts vs0 ++ seg := by
      have : st.trace ++ [.start reset] ++ sg = st.trace ++ [.start reset] ++ (retEvents pts vs0 ++ seg) := by
        rw [← List.append_assoc _ (retEvents pts vs0), ← htr, h1]; rfl
      exact List.append_cancel_left this
    intro hmem
    exact h2 _ (by rw [h3]; exact List.mem_append_right _ hmem)
  -- every iteration evaluates a grid point
  have hchoice : ∀ p g it rest, seg = p ++ .acqui g it :: rest → ∃ x r post, rest = .call (x.map XR.fin) r :: post ∧ GridPt b d x := by
    intro p g it rest he
    obtain ⟨-, x, r, post, h1, h2, -⟩ := grid_choice hE hP hG hd c u0 _ afun hops' st' h' (st.trace ++ [.start reset] ++ retEvents pts vs0 ++ p) rest g it
      (by rw [htr, he]; simp)
    exact ⟨x, r, post, h1, h2⟩
  have hdlen : (decided seg).length = k := by
    rw [decided_length seg fun p g it rest he => by obtain ⟨x, r, post, h1, -⟩ := hchoice p g it rest he; exact ⟨_, r, post, h1⟩, hs.acq]
  obtain ⟨G, hGc, hGm⟩ := gridPt_finset b d
  have hmemG : ∀ X ∈ decided seg, X ∈ G := by
    intro X hX
    obtain ⟨p, g, it, r, q, he, -⟩ := decided_split X seg 0 (List.count_pos_iff.2 hX)
    obtain ⟨x, r', post, h1, h2⟩ := hchoice p g it _ he
    simp only [List.cons.injEq, Event.call.injEq] at h1
    rw [h1.1.1]; exact hGm x h2
  obtain ⟨X, -, hXc⟩ := exists_count_of_length (decided seg) G hmemG n (by
    rw [hdlen]
    refine lt_of_le_of_lt (Nat.mul_le_mul_left n hGc) ?_
    omega)
  obtain ⟨p, g, it, r, q, he, hc⟩ := decided_split X seg n (hXc.trans_eq (count_inst _ _ _ _))
  obtain ⟨x, r', post, h1, hx⟩ := hchoice p g it _ he
  simp only [List.cons.injEq, Event.call.injEq] at h1
  obtain ⟨⟨rfl, -⟩, -⟩ := h1
  -- it had been evaluated `n` times
  have hret : ∀ r, Event.call (x.map XR.fin) r ∈ seg → ∃ v, r = .ret v ∧ v.all (fun y => isFinite y) = true := by
    intro r hr
    have h2 : HonestEv d f (Event.call (x.map XR.fin) r : Event XR (GpState E)) := hon _ (by rw [htr]; exact List.mem_append_right _ hr)
    exact ⟨[XR.fin (f x)], h2 x hx.1 rfl, by simp only [List.all_cons, List.all_nil, Bool.and_true]; exact (XR.isFinite_iff _).2 ⟨_, rfl⟩⟩
  set pre := st.trace ++ [.start reset] ++ retEvents pts vs0 ++ p with hpre
  have hcount : n ≤ ((expect pre).map Prod.fst).count (x.map XR.fin) := by
    have h2 := count_expectFrom (x := x.map XR.fin) (p := p) (acc := expect (st.trace ++ [.start reset] ++ retEvents pts vs0))
      (fun hm => hquiet (by rw [he]; exact List.mem_append_left _ hm)) (fun r hr => hret r (by rw [he]; exact List.mem_append_left _ hr))
    have h3 : expect pre = expectFrom (expect (st.trace ++ [.start reset] ++ retEvents pts vs0)) p := by
      rw [hpre, expect, expectFrom_append]; rfl
    rw [h3]; omega
  have hdata : ∃ p ∈ expect pre, p.1.length = d := by
    have : x.map XR.fin ∈ (expect pre).map Prod.fst := List.count_pos_iff.1 (by omega)
    obtain ⟨a, ha, hae⟩ := List.mem_map.1 this
    exact ⟨a, ha, by rw [hae]; simpa using hx.1⟩
  obtain ⟨x2, r2, post2, mean, var, h2, -, -, hopt, hvar⟩ := ucb_decision hE hP hh hG hd h0 hA hn hm hf hF hF1 c u0 _ hops2 st' h' pre (.call (x.map XR.fin) r :: q) g it
    (by rw [htr, he, hpre]; simp) hdata
  simp only [List.cons.injEq, Event.call.injEq] at h2
  have hxx : x2 = x := (List.map_injective_iff.2 (fun a b h => Xt.fin.inj h) h2.1.1).symm
  subst hxx
  have hnoise : (0 : ℝ) < E.KP.noise := lt_of_lt_of_le (by positivity) hn
  have hv : var x2 ≤ E.KP.noise + (E.KP.noise + 1e-8) / n := by
    refine (hvar x2 (by omega)).trans (add_le_add_right (div_le_div_of_nonneg_left (by positivity) (by exact_mod_cast hn0) (by exact_mod_cast hcount)) _)
  -- its value is stored
  have hinv : DataInv st' := (fixed_history hP hh c u0 _ st' h').inv
  have hstored : ∃ j : Nat, st'.observations[j]? = some [XR.fin (f x2)] := by
    have hcalls : 0 < ((expect st'.trace).map Prod.fst).count (x2.map XR.fin) := by
      have h3 := count_expectFrom (x := x2.map XR.fin) (p := seg) (acc := expect (st.trace ++ [.start reset] ++ retEvents pts vs0)) hquiet hret
      have h4 : expect st'.trace = expectFrom (expect (st.trace ++ [.start reset] ++ retEvents pts vs0)) seg := by
        rw [htr, expect, expectFrom_append]; rfl
      have h5 : 0 < (callPts seg).count (x2.map XR.fin) := by
        refine List.count_pos_iff.2 ?_
        have : ∀ (l l' : List (Event XR (GpState E))), callPts (l ++ l') = callPts l ++ callPts l' := by
          intro l l'
          induction l with
          | nil => rfl
          | cons e es ih => cases e <;> simp [callPts, ih]
        rw [he, this]
        simp [callPts]
      rw [h4]; omega
    obtain ⟨⟨a, w⟩, ha, hae⟩ := List.mem_map.1 (List.count_pos_iff.1 hcalls)
    have hw := honest_expect hon a w ha x2 hx.1 hae
    rw [← hinv.zip] at ha
    rw [hw] at ha
    exact List.getElem?_of_mem (List.of_mem_zip ha).2
  obtain ⟨j, hj⟩ := hstored
  have hfinobs : ∀ v ∈ st'.observations, ∃ l : List ℝ, v = l.map XR.fin := fun v hv => (allFinite_allFin (hinv.fin v hv)).exists_map
  obtain ⟨i, s, w, hw, -, hb, -, hmax, -⟩ := C03_best P c (Gp.new E u0) _ st' h' (by intro hnil; rw [hnil] at hj; simp at hj) afun (by
    intro v hv
    obtain ⟨l, rfl⟩ := hfinobs v hv
    rw [hF]; rfl)
  obtain ⟨l, rfl⟩ := hfinobs w (List.mem_of_getElem? hw)
  refine ⟨_, F l, hb, hF l, fun q hq => ?_⟩
  have h3 := hmax j _ hj
  have h4 : afun [XR.fin (f x2)] = XR.fin (f x2) := by
    have := hF [f x2]
    rw [hF1] at this; exact this
  rw [h4, hF, XR.le_fin] at h3
  have h5 := hopt q hq
  have h6 := mul_le_mul_of_nonneg_left (Real.sqrt_le_sqrt hv) (by positivity : 0 ≤ 2 * alpha)
  linarith

/-! ### Such a run returns -/

section Returns

variable {b fuel d : Nat} {alpha : ℝ} {prior f : List ℝ → ℝ} {afun : List XR → XR} {F : List ℝ → ℝ}

set_option exponentiation.threshold 2000 in
/-- grid search finds a maximum of UCB -/
theorem ucb_grid_search_never_fails (hE : LawfulEnv E) (hb : 0 < b) (hfuel : b + 2 ≤ fuel) (hd : 0 < d) (h0 : 0 ≤ alpha)
    (hn : 2 ^ (-52 : ℤ) ≤ E.KP.noise) (hm : ∀ ys v, meanFn (E.M.new 1) ys 1 v 0 = prior v)
    (hf : InKernelBall (BaseK.mk' E.KP d : BaseK E.K).op prior d alpha f) (hF : ∀ l, afun (l.map XR.fin) = XR.fin (F l)) (hF1 : ∀ y, F [y] = y)
    (hlow : ∀ q, GridPt b d q → -1e308 ≤ f q) {g : GpState E} {data : List (List XR × List XR)} (hrel : FixRel g data) (hon : HonestData d f data)
    (hdata : ∃ p ∈ data, p.1.length = d) (it : Int) (x0 : List XR) (hx0 : x0.length = d) :
    ∃ y, (gridSearch b fuel).toRes (fun x gr => ucbObj alpha g it afun x gr) x0 true = .point y ∧ PointOk d y := by
  obtain ⟨mean, var, hpr⟩ := fits_predicts (hrel.1.fits hE)
  obtain ⟨hbars, -⟩ := honest_predictions hE h0 hn hm hf hF1 hrel hon hdata hpr
  have hval : ∀ v : List ℝ, (ucbObj alpha g it afun (v.map XR.fin) false).1 = XR.fin (F (mean v) + alpha * √(var v)) := by
    intro v
    simp only [ucbObj, reals?_map, Option.bind_some, Acqui.ucb, Bool.false_eq_true, if_false, hpr.view, Option.map_some, realAgg_eq hF]
  obtain ⟨r, h1, h2, -⟩ := C18_grid_search_optimum (fun x gr => ucbObj alpha g it afun x gr) b fuel hb hfuel x0 (by rw [hx0]; exact hd) (by
    intro p hp
    obtain ⟨x, hx⟩ := List.exists_mem_of_ne_nil _ (regularAxis_ne_nil b)
    refine ⟨x, hx, ?_⟩
    have hon : OnGrid (regularAxis b) (x0.length - 1 + 1) (p ++ [x]) :=
      ⟨by simp [hp.1], fun z hz => by
        rcases List.mem_append.1 hz with hz | hz
        · exact hp.2 z hz
        · rw [List.mem_singleton.1 hz]; exact hx⟩
    obtain ⟨v, hv, hgv⟩ := onGrid_iff.1 hon
    have hgv' : GridPt b d v := by
      have : x0.length - 1 + 1 = d := by omega
      rwa [this] at hgv
    have e := hval v
    rw [hv, e]
    unfold negDblMax
    rw [XR.lit_eq, XR.lt_fin]
    refine lt_of_lt_of_le ?_ ((hlow v hgv').trans (hbars v hgv'.1).1)
    norm_num)
  refine ⟨r, by simp only [Optz.toRes, h1], ?_⟩
  rw [hx0] at h2
  obtain ⟨v, rfl, hv⟩ := onGrid_iff.1 h2
  refine ⟨?_, by simpa using hv.1⟩
  intro z hz
  obtain ⟨a, -, rfl⟩ := List.mem_map.1 hz
  exact ⟨a, rfl⟩

theorem evalAndAdd_returns {sf : StateFun XR (GpState E)} (hsf : Evaluates d f sf) {x : List XR} (hx : PointOk d x) (st : BoState XR (GpState E)) :
    (evalAndAdd sf x st).All (fun s => s.samples ≠ []) (fun _ => False) := by
  have hv : ∃ v : List ℝ, x = v.map XR.fin := hx.1.exists_map
  obtain ⟨v, rfl⟩ := hv
  have hl : v.length = d := by simpa using hx.2
  unfold evalAndAdd
  simp only [hsf.2 _ v hl]
  have hfin : [XR.fin (f v)].all (fun y => isFinite y) = true := by
    simp only [List.all_cons, List.all_nil, Bool.and_true]; exact (XR.isFinite_iff _).2 ⟨_, rfl⟩
  unfold addNewSample
  split
  · next hnf =>
    have e : (isNaN (XR.fin (f v)) || isInf (XR.fin (f v))) = false := rfl
    simp [isNanOrInf, e] at hnf
  · simp [Res.All]

theorem evalAll_returns {sf : StateFun XR (GpState E)} (hsf : Evaluates d f sf) : ∀ (pts : List (List XR)), (∀ x ∈ pts, PointOk d x) →
    ∀ st : BoState XR (GpState E), pts ≠ [] ∨ st.samples ≠ [] → (evalAll sf pts st).All (fun s => s.samples ≠ []) (fun _ => False) := by
  intro pts
  induction pts with
  | nil => intro _ st h; rcases h with h | h; exacts [absurd rfl h, h]
  | cons x xs ih =>
    intro hp st _
    exact (evalAndAdd_returns hsf (hp x (by simp)) st).andThen fun s h => ih (fun y hy => hp y (by simp [hy])) s (Or.inr h)

theorem gpRes_no_throw {o : Option (GpState E)} {st : BoState XR (GpState E)} (h : st.samples ≠ []) :
    (withModel st (gpRes o)).All (fun s => s.samples ≠ []) (fun _ => False) := by
  cases o with
  | none => trivial
  | some g => exact h

theorem boIteration_returns (hP : P.ops = gpOps E u junkC junkA hp) {sf : StateFun XR (GpState E)} (hsf : Evaluates d f sf)
    (st : BoState XR (GpState E)) {y : List XR} (hy : PointOk d y)
    (hin : P.acquiOpt (st.push (.acqui st.model st.currentIteration)) (fun x g => P.acqui (st.push (.acqui st.model st.currentIteration)).model
      (st.push (.acqui st.model st.currentIteration)).currentIteration afun x g) (P.startPt (st.push (.acqui st.model st.currentIteration)) d) P.bounded = .point y) :
    (boIteration P sf afun st).All (fun s => s.samples ≠ []) (fun _ => False) := by
  unfold boIteration
  simp only
  rw [hsf.1, hin]
  refine (evalAndAdd_returns hsf hy _).andThen fun s1 h1 => ?_
  refine Res.All.andThen (Q := fun s => s.samples ≠ []) (updateStats_all _ _ _ _ _ fun logs _ => h1) fun s2 h2 => ?_
  refine Res.All.andThen (Q := fun s => s.samples ≠ []) ?_ fun s3 h3 => ?_
  · unfold boModelAdd
    split
    · rw [hP]; exact gpRes_no_throw h2
    · trivial
  · refine Res.All.andThen (Q := fun s => s.samples ≠ []) ?_ fun s4 h4 => (show s4.samples ≠ [] from h4)
    unfold boHp
    split
    · rw [hP]; exact gpRes_no_throw h3
    · exact h3

/-- everything an iteration needs -/
structure Honest (P : BoParams XR (GpState E)) (d : Nat) (f : List ℝ → ℝ) (st : BoState XR (GpState E)) : Prop where
  rel : RelQ FixRel st
  ev : AllEv (HonestEv d f) st
  shape : Shape P.stats.length d 1 st
  ne : st.samples ≠ []

theorem RelQ.gp {st : BoState XR (GpState E)} (h : RelQ FixRel st) : RelQ GpRel st := by
  refine ⟨h.inv, ?_, h.model.1⟩
  intro pre e hp
  have := h.tr pre e hp
  cases e with
  | acqui m it => exact And.left this
  | hp m => exact And.left this
  | stat m => obtain ⟨dt, q, h1, h2⟩ := this; exact ⟨dt, q, h1.1, h2⟩
  | _ => trivial

theorem Honest.data {st : BoState XR (GpState E)} (h : Honest P d f st) : HonestData d f (st.samples.zip st.observations) ∧
    ∃ p ∈ st.samples.zip st.observations, p.1.length = d := by
  refine ⟨by rw [h.rel.inv.zip]; exact honest_expect h.ev, ?_⟩
  obtain ⟨x, xs, hx⟩ := List.exists_cons_of_ne_nil h.ne
  have hl := h.rel.inv.len
  rw [hx] at hl
  obtain ⟨w, ws, hw⟩ := List.exists_cons_of_ne_nil (show st.observations ≠ [] by intro e; rw [e] at hl; simp at hl)
  exact ⟨(x, w), by rw [hx, hw]; simp, (h.shape.samples x (by rw [hx]; simp)).2⟩

theorem notData_honest (e : Event XR (GpState E)) (he : e.notData) : HonestEv d f e := by
  cases e <;> first | trivial | exact he.elim

theorem boLoop_returns (hE : LawfulEnv E) (hP : P.ops = gpOps E u junkC junkA .none) 
    (hin : ∀ st' : BoState XR (GpState E), Honest P d f st' → ∃ y, P.acquiOpt (st'.push (.acqui st'.model st'.currentIteration))
      (fun x g => P.acqui st'.model st'.currentIteration afun x g) (P.startPt (st'.push (.acqui st'.model st'.currentIteration)) d) P.bounded = .point y ∧ PointOk d y)
    (hC : PartsOk P .none d 1) {sf : StateFun XR (GpState E)} (hsf : Evaluates d f sf)
    (hsf1 : ObjectiveOk d 1 sf) : ∀ (k : Nat) (st : BoState XR (GpState E)), Honest P d f st →
    (boLoop P sf afun k st).Safe (Honest P d f) (fun _ => False) := by
  have hL : LawfulRel P.ops (FixRel (E := E)) := by rw [hP]; exact gpOps_fixed u junkC junkA
  have hcall : ∀ tr x, HonestEv d f (Event.call x (sf.call tr x) : Event XR (GpState E)) := by
    rintro tr x v hv rfl; exact hsf.2 tr v hv
  intro k
  induction k with
  | zero => intro st _; trivial
  | succ k ih =>
    intro st h
    have hne := boStop_some hE hC afun st h.rel.gp
    have hstop : ∀ bb st', boStop P afun st = some (bb, st') → Honest P d f st' := by
      intro bb st' hs'
      have h1 := boStop_rel hs' h.rel
      obtain ⟨as, rfl, has⟩ := boStop_spec hs'
      refine ⟨h1, ?_, h.shape.of_eq rfl rfl rfl, h.ne⟩
      intro e he
      rcases List.mem_append.1 he with he | he
      · exact h.ev e he
      · obtain ⟨j, a, rfl⟩ := has e he; trivial
    unfold boLoop
    split
    · next hs' => exact absurd hs' hne
    · next st' hs' => exact hstop _ _ hs'
    · next st' hs' =>
      have h' := hstop _ _ hs'
      obtain ⟨y, hin, hy2⟩ := hin st' h'
      have s1 := boIteration_safe hE hP hC hsf1 afun st' h'.rel.gp h'.shape (Or.inl ⟨y, hin, hy2⟩)
      have s2 := boIteration_rel hL sf afun st' h'.rel
      have s3 := boIteration_allEv (P := P) (afun := afun) (H := HonestEv d f) notData_honest hcall st' h'.ev
      have s4 := boIteration_returns (afun := afun) hP hsf st' hy2 hin
      have s5 : (boIteration P sf afun st').Safe (Honest P d f) (fun _ => False) := by
        cases hr : boIteration P sf afun st' with
        | ok s => rw [hr] at s1 s2 s3 s4; exact ⟨s2, s3, s1, s4⟩
        | throw e s => rw [hr] at s4; exact s4
        | ub => rw [hr] at s1; exact s1
        | diverge => trivial
      exact s5.andThen ih

end Returns

/-- the first run returns if the optimizer of the acquisition function always finds a point -/
theorem first_run_returns (hE : LawfulEnv E) (hP : P.ops = gpOps E u junkC junkA hp) (hh : P.hpPeriod ≤ 0)
    (hin : ∀ st' : BoState XR (GpState E), Honest P d f st' → ∃ y, P.acquiOpt (st'.push (.acqui st'.model st'.currentIteration))
      (fun x g => P.acqui st'.model st'.currentIteration afun x g) (P.startPt (st'.push (.acqui st'.model st'.currentIteration)) d) P.bounded = .point y ∧ PointOk d y)
    (hC : PartsOk P hp d 1) (hinit : ∀ st, P.initPts st d ≠ some [])
    (N : Int) (hN : P.stop = [maxIterations N]) (sf : StateFun XR (GpState E)) (hsf : Evaluates d f sf) (hsf1 : ObjectiveOk d 1 sf)
    (c : Int) (u0 : ℝ × ℝ) (reset : Bool) (fuel' : Nat) (hfuel : N < fuel') :
    ∃ st', optimize P sf afun reset (fuel' + 1) (newBo P c (Gp.new E u0)) = .ok st' := by
  have hres : ∀ o : Option (GpState E), gpRes o ≠ .diverge := by intro o; cases o <;> simp [gpRes]
  have hdiv := C04_terminates P N (by rw [hN]; simp) sf afun (by rw [hP]; intro _ _ _; exact hres _) (by rw [hP]; intro _ _ _; exact hres _)
    (by rw [hP]; intro _; exact hres _) reset fuel' hfuel (newBo P c (Gp.new E u0))
  have hirr := runOp_irrelevant hh (gpOps E u junkC junkA .none).optHp (.optimize sf afun reset (fuel' + 1)) (newBo P c (Gp.new E u0))
  simp only [runOp] at hirr
  rw [← hirr] at hdiv ⊢
  generalize hQ : ({ P with ops := { P.ops with optHp := (gpOps E u junkC junkA .none).optHp } } : BoParams XR (GpState E)) = Q at hdiv ⊢
  have hQops : Q.ops = gpOps E u junkC junkA .none := by rw [← hQ]; simp only [hP]; rfl
  have hQin : ∀ st' : BoState XR (GpState E), Honest Q d f st' → ∃ y, Q.acquiOpt (st'.push (.acqui st'.model st'.currentIteration))
      (fun x g => Q.acqui st'.model st'.currentIteration afun x g) (Q.startPt (st'.push (.acqui st'.model st'.currentIteration)) d) Q.bounded = .point y ∧ PointOk d y := by
    rw [← hQ]; intro st' h; exact hin st' ⟨h.rel, h.ev, h.shape, h.ne⟩
  have hQC : PartsOk Q .none d 1 := by
    rw [← hQ]; exact ⟨hC.din_pos, hC.dout_pos, hC.init, hC.stop, hC.stats, fun h => absurd h (not_lt.2 hh)⟩
  have hQi : ∀ st, Q.initPts st d ≠ some [] := by rw [← hQ]; exact hinit
  have hnew : newBo P c (Gp.new E u0) = newBo Q c (Gp.new E u0) := by rw [← hQ]; rfl
  rw [hnew] at hdiv ⊢
  have hrel0 : RelT FixRel (newBo Q c (Gp.new E u0)) := ⟨newBo_inv Q c _, by intro pre e hp; simp [newBo] at hp, [],
    ⟨[], [], rfl, rfl, GpReach.new u0⟩, Or.inl rfl, Or.inl rfl⟩
  have hsh0 : Shape Q.stats.length d 1 (newBo Q c (Gp.new E u0)) := ⟨by simp [newBo], by simp [newBo], by simp [newBo]⟩
  have hL : LawfulRel Q.ops (FixRel (E := E)) := by rw [hQops]; exact gpOps_fixed u junkC junkA
  have hcall : ∀ tr x, HonestEv d f (Event.call x (sf.call tr x) : Event XR (GpState E)) := by
    rintro tr x v hv rfl; exact hsf.2 tr v hv
  have hsafe : (optimize Q sf afun reset (fuel' + 1) (newBo Q c (Gp.new E u0))).Safe (Honest Q d f) (fun _ => False) := by
    unfold optimize
    have i1 := boInit_safe hQC hsf1 reset _ hsh0
    have i2 := boInit_relT (R := FixRel) Q sf reset _ hrel0
    have i34 : (boInit Q sf reset ((newBo Q c (Gp.new E u0)).push (.start reset))).All (fun s => AllEv (HonestEv d f) s ∧ s.samples ≠ []) (fun _ => False) := by
      have hev0 : AllEv (HonestEv d f) (initState reset (newBo Q c (Gp.new E u0))) := by
        intro e he
        have : (initState reset (newBo Q c (Gp.new E u0))).trace = [.start reset] := by cases reset <;> rfl
        rw [this, List.mem_singleton] at he; rw [he]; trivial
      rw [boInit_eq]
      rw [if_pos (Or.inr rfl : runsInit reset (newBo Q c (Gp.new E u0)))]
      obtain ⟨pts, hp1, hp2⟩ := hQC.init (initState reset (newBo Q c (Gp.new E u0)))
      rw [hsf.1, hp1]
      have hne : pts ≠ [] := by rintro rfl; exact hQi _ hp1
      have a1 := evalAll_allEv (H := HonestEv d f) hcall pts _ hev0
      have a2 := evalAll_returns hsf pts hp2 (initState reset (newBo Q c (Gp.new E u0))) (Or.inl hne)
      simp only
      cases hr : evalAll sf pts (initState reset (newBo Q c (Gp.new E u0))) with
      | ok s => rw [hr] at a1 a2; exact ⟨a1, a2⟩
      | throw e s => rw [hr] at a2; exact a2
      | ub => trivial
      | diverge => trivial
    have i5 : (boInit Q sf reset ((newBo Q c (Gp.new E u0)).push (.start reset))).Safe
        (fun s => RelT FixRel s ∧ Shape Q.stats.length d 1 s ∧ AllEv (HonestEv d f) s ∧ s.samples ≠ []) (fun _ => False) := by
      cases hr : boInit Q sf reset ((newBo Q c (Gp.new E u0)).push (.start reset)) with
      | ok s => rw [hr] at i1 i2 i34; exact ⟨i2, i1, i34⟩
      | throw e s => rw [hr] at i34; exact i34
      | ub => rw [hr] at i1; exact i1
      | diverge => trivial
    refine i5.andThen ?_
    rintro s1 ⟨h1, h2, h3, h4⟩
    have hgp1 : RelT GpRel s1 := by
      refine ⟨h1.inv, ?_, ?_⟩
      · intro pre e hp
        have := h1.tr pre e hp
        cases e with
        | acqui m it => exact And.left this
        | hp m => exact And.left this
        | stat m => obtain ⟨dt, q, h1, h2⟩ := this; exact ⟨dt, q, h1.1, h2⟩
        | _ => trivial
      · obtain ⟨dt, hdt⟩ := h1.wf; exact ⟨dt, hdt.1⟩
    have m1 := boModelInit_safe hE hQops hQC (f := sf) s1 hgp1 h2
    have hne1 : s1.observations.isEmpty = false := by
      have hl := h1.inv.len
      cases ho : s1.observations with
      | nil => rw [ho] at hl; exact absurd (List.length_eq_zero_iff.1 hl) h4
      | cons => rfl
    have m2 : (boModelInit Q sf s1).Safe (Honest Q d f) (fun _ => False) := by
      unfold boModelInit at m1 ⊢
      rw [hne1] at m1 ⊢
      simp only [Bool.false_eq_true, if_false] at m1 ⊢
      obtain ⟨dt, hdt⟩ := h1.wf
      cases hr : Q.ops.compute s1.samples s1.observations s1.model with
      | ok m =>
        rw [hr] at m1
        exact ⟨⟨h1.inv.of_eq rfl rfl rfl, h1.tr, hL.compute _ _ _ _ _ hdt h1.inv.len hr⟩, h3, m1.2, h4⟩
      | throw e m =>
        rw [hQops] at hr
        simp only [gpOps, boGpCompute, gpRes] at hr
        split at hr <;> cases hr
      | ub => rw [hr] at m1; exact m1
      | diverge => trivial
    refine m2.andThen fun s2 h2 => ?_
    exact boLoop_returns hE hQops hQin hQC hsf hsf1 _ s2 h2
  cases hr : optimize Q sf afun reset (fuel' + 1) (newBo Q c (Gp.new E u0)) with
  | ok s => exact ⟨s, rfl⟩
  | throw e s => rw [hr] at hsafe; exact hsafe.elim
  | ub => rw [hr] at hsafe; exact hsafe.elim
  | diverge => exact absurd hr hdiv

/-- **C104**: the first run of such an optimizer returns normally (if the initialiser gives at least one point, the other components do their job and
the values on the grid are above -1e308), so the bound of `C104_converges` is met by its result. -/
theorem C104_first_run (hE : LawfulEnv E) (hP : P.ops = gpOps E u junkC junkA hp) (hh : P.hpPeriod ≤ 0) {b fuel d : Nat} (hG : UsesGridSearch P b fuel)
    (hd : 0 < d) {alpha : ℝ} (h0 : 0 ≤ alpha) (hA : P.acqui = ucbObj alpha) (hn : 2 ^ (-52 : ℤ) ≤ E.KP.noise) {prior f : List ℝ → ℝ}
    (hm : ∀ ys v, meanFn (E.M.new 1) ys 1 v 0 = prior v) (hf : InKernelBall (BaseK.mk' E.KP d : BaseK E.K).op prior d alpha f)
    {afun : List XR → XR} {F : List ℝ → ℝ} (hF : ∀ l, afun (l.map XR.fin) = XR.fin (F l)) (hF1 : ∀ y, F [y] = y)
    (hlow : ∀ q, GridPt b d q → -1e308 ≤ f q) (hC : PartsOk P hp d 1) (hinit : ∀ st, P.initPts st d ≠ some [])
    (N : Int) (hN : P.stop = [maxIterations N]) (sf : StateFun XR (GpState E)) (hsf : Evaluates d f sf) (hsf1 : ObjectiveOk d 1 sf)
    (c : Int) (u0 : ℝ × ℝ) (reset : Bool) (fuel' : Nat) (hfuel : N < fuel') (n : Nat) (hn0 : 0 < n) (hnN : ((n * (b + 1) ^ d : Nat) : Int) < N) :
    ∃ st' w y, optimize P sf afun reset (fuel' + 1) (newBo P c (Gp.new E u0)) = .ok st' ∧ bestObservation afun st' = some w ∧ afun w = XR.fin y ∧
      ∀ q, GridPt b d q → f q ≤ y + 2 * alpha * √(E.KP.noise + (E.KP.noise + 1e-8) / n) := by
  suffices hret : ∃ st', optimize P sf afun reset (fuel' + 1) (newBo P c (Gp.new E u0)) = .ok st' by
    obtain ⟨st', hr⟩ := hret
    obtain ⟨w, y, h1, h2, h3⟩ := C104_converges hE hP hh hG hd h0 hA hn hm hf hF hF1 c u0 [] (by simp) _ rfl N hN sf hsf reset _ st' hr n hn0 hnN
    exact ⟨st', w, y, hr, h1, h2, h3⟩
  refine first_run_returns hE hP hh (fun st' h' => ?_) hC hinit N hN sf hsf hsf1 c u0 reset fuel' hfuel
  obtain ⟨hdat, hdat'⟩ := h'.data
  obtain ⟨y, hy1, hy2⟩ := ucb_grid_search_never_fails hE hG.bins hG.fuel hd h0 hn hm hf hF hF1 hlow h'.rel.model hdat hdat' st'.currentIteration
    (P.startPt (st'.push (.acqui st'.model st'.currentIteration)) d) (hG.start _ _)
  exact ⟨y, by rw [hG.opt, hG.bounded, hA]; exact hy1, hy2⟩

/-! A concrete optimizer: `UCB` with `alpha = 3` on a grid of 5 points, the GP of `Props/Confidence.lean`, one initial point, 11 iterations (more than
2 × 5), statistics on; the objective is `3 k(1/4, ·)`. -/

noncomputable def exUcbP : BoParams XR (GpState exBallEnv) where
  bounded := true
  statsEnabled := true
  hpPeriod := -1
  ops := gpOps exBallEnv (fun _ _ => (1, 2)) (fun _ _ _ _ _ => 7) (fun _ _ _ _ _ => 7) .none
  initPts := fun _ d => some [List.replicate d (XR.fin 1)]
  acqui := ucbObj 3
  acquiOpt := fun _ f x b => (gridSearch 4 6).toRes f x b
  startPt := fun _ d => List.replicate d (XR.fin (1/2))
  stop := [maxIterations 11]
  stats := [statSamples, statObservations]

noncomputable def exUcbF : StateFun XR (GpState exBallEnv) where
  dimIn := 1
  dimOut := 1
  call := fun _ x => match reals? x with
    | some v => .ret [XR.fin (exBallF v)]
    | none => .threw

theorem exUcb_evaluates : Evaluates 1 exBallF exUcbF := ⟨rfl, fun _ v _ => by simp only [exUcbF, reals?_map]⟩

theorem exUcb_objective : ObjectiveOk 1 1 exUcbF := by
  refine ⟨rfl, fun tr x v h => ?_⟩
  simp only [exUcbF] at h
  split at h
  · cases h; rfl
  · cases h

theorem exUcb_parts : PartsOk exUcbP .none 1 1 where
  din_pos := one_pos
  dout_pos := one_pos
  init := fun _ => ⟨_, rfl, by
    intro x hx
    rw [List.mem_singleton.1 hx]
    exact ⟨by intro y hy; rw [List.eq_of_mem_replicate hy]; exact ⟨1, rfl⟩, by simp⟩⟩
  stop := by
    intro c hc st afun _
    rw [List.mem_singleton.1 hc]; simp [maxIterations]
  stats := by
    intro s hs st afun _
    simp only [exUcbP, List.mem_cons, List.not_mem_nil, or_false] at hs
    rcases hs with rfl | rfl <;> simp [statSamples, statObservations]
  hp := fun h => absurd h (by show ¬ (0 : Int) < -1; norm_num)

example : ∃ st' w y, optimize exUcbP exUcbF (fun v => v.headD (XR.fin 0)) false 13 (newBo exUcbP 0 (Gp.new exBallEnv (0, 0))) = .ok st' ∧
    bestObservation (fun v => v.headD (XR.fin 0)) st' = some w ∧ w.headD (XR.fin 0) = XR.fin y ∧
      ∀ q, GridPt 4 1 q → exBallF q ≤ y + 2 * 3 * √(0.01 + (0.01 + 1e-8) / (2 : Nat)) := by
  refine C104_first_run exBallEnv_lawful rfl (by show (-1 : Int) ≤ 0; norm_num) (b := 4) (fuel := 6) (d := 1)
    ⟨rfl, rfl, fun _ _ => List.length_replicate .., by norm_num, by norm_num⟩ one_pos (by norm_num) rfl (by show (2 : ℝ) ^ (-52 : ℤ) ≤ 0.01; norm_num)
    (prior := fun _ => 0) (fun ys v => by rfl) exBall (F := fun l => l.headD 0) (fun l => by cases l <;> rfl) (fun y => rfl)
    (fun q _ => ?_) exUcb_parts (fun st h => ?_) 11 rfl exUcbF exUcb_evaluates exUcb_objective 0 (0, 0) false 12 (by norm_num) 2 (by norm_num) (by norm_num)
  · have : 0 ≤ exBallF q := by
      unfold exBallF
      rw [op_fun]
      have : 0 ≤ exBallEnv.K.kernel (BaseK.mk' exBallEnv.KP 1 : BaseK exBallEnv.K).inner [1 / 4] q := by
        show (0 : ℝ) ≤ (expKernel 1 1).kernel (IsoSt.mk' 1 1) _ _
        simp only [expKernel]
        have : (IsoSt.mk' 1 1).sf2 = 1 := by simp [IsoSt.mk']
        rw [this]
        positivity
      positivity
    refine le_trans ?_ this
    norm_num
  · simp [exUcbP] at h

end Limbo
