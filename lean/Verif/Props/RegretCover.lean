import Verif.Lemmas.BoCover
import Verif.Lemmas.KernelCover
import Verif.Props.Regret
import Verif.Spec.RegretCover

/-!
C109: convergence of `BOptimizer` with `UCB`, any optimizer of the acquisition function and a GP whose hyper-parameters are not optimized, for
objectives of bounded kernel norm.
-/

namespace Limbo

open Gp

variable {E : GpEnv} {u : Nat → Nat → ℝ × ℝ} {junkC : List (List ℝ) → List (List ℝ) → GpState E → Nat → Nat → ℝ}
  {junkA : List ℝ → List ℝ → GpState E → Nat → Nat → ℝ} {hp : HpFunctor E} {P : BoParams XR (GpState E)}

open Classical in
/-- one decision -/
theorem near_decision (hE : LawfulEnv E) (hP : P.ops = gpOps E u junkC junkA hp) (hh : P.hpPeriod ≤ 0) {d : Nat} {S : Set (List ℝ)}
    (hS : ∀ v ∈ S, v.length = d) {alpha eps : ℝ} (h0 : 0 ≤ alpha) (hn : 2 ^ (-52 : ℤ) ≤ E.KP.noise) {prior f : List ℝ → ℝ}
    (hm : ∀ ys v, meanFn (E.M.new 1) ys 1 v 0 = prior v) (hf : InKernelBall (BaseK.mk' E.KP d : BaseK E.K).op prior d alpha f)
    {afun : List XR → XR} {F : List ℝ → ℝ} (hF1 : ∀ y, F [y] = y)
    (c : Int) (u0 : ℝ × ℝ) (ops : List (BoOp XR (GpState E))) (hops : ∀ o ∈ ops, OptimizesOp d f afun o) (st : BoState XR (GpState E))
    (h : runOps P ops (newBo P c (Gp.new E u0)) = some st) (pre rest : List (Event XR (GpState E))) (g : GpState E) (it : Int)
    (htr : st.trace = pre ++ .acqui g it :: rest) (hdata : ∃ p ∈ expect pre, p.1.length = d) {x : List ℝ} (hx : x ∈ S)
    (hnear : UcbNearBest g F alpha eps S x) :
    ∃ mean var, Predicts g mean var ∧ (∀ q ∈ S, f q ≤ f x + eps + 2 * alpha * √(var x)) ∧
      (∀ (Q : List XR → Prop) (w : ℝ), 0 ≤ w →
        (∀ y : List ℝ, y.length = d → Q (y.map XR.fin) → (BaseK.mk' E.KP d : BaseK E.K).op y y - 2 * (BaseK.mk' E.KP d : BaseK E.K).op y x +
          (BaseK.mk' E.KP d : BaseK E.K).op x x ≤ w) →
        0 < ((expect pre).map Prod.fst).countP (fun x => decide (Q x)) →
          var x ≤ E.KP.noise + (E.KP.noise + 1e-8) / ((expect pre).map Prod.fst).countP (fun x => decide (Q x)) + w) := by
  have hfit := (C90_predictions_from_all_data hE hP c u0 ops st h pre rest g it).1 htr
  obtain ⟨mean, var, hpr⟩ := fits_predicts hfit
  have hrel : FixRel g (expect pre) := (fixed_history hP hh c u0 ops st h).tr pre (.acqui g it) ⟨rest, by rw [htr]; simp⟩
  have hon : HonestData d f (expect pre) := honest_expect fun e he => honest_history ops hops c _ st h e (by rw [htr]; exact List.mem_append_left _ he)
  obtain ⟨hbars, -, hcnt, -⟩ := honest_predictions hE h0 hn hm hf hF1 hrel hon hdata hpr
  refine ⟨mean, var, hpr, fun q hq => ?_, hcnt x (hS x hx)⟩
  have h1 := (hbars q (hS q hq)).1
  have h2 := (hbars x (hS x hx)).2
  have h3 := hnear mean var hpr q hq
  linarith

/-- **C109**: each decision.  The data are values of a function `f` whose distance from the prior mean has kernel norm at most the `alpha` of UCB.
If the point `x` found by the optimizer of the acquisition function has an upper confidence bound within `eps` of the highest on `S`, no value of `f` on
`S` exceeds `f x` by more than `eps` plus `2 alpha` reported standard deviations at `x`. -/
theorem C109_next_point (hE : LawfulEnv E) (hP : P.ops = gpOps E u junkC junkA hp) (hh : P.hpPeriod ≤ 0) {d : Nat} {S : Set (List ℝ)}
    (hS : ∀ v ∈ S, v.length = d) {alpha eps : ℝ} (h0 : 0 ≤ alpha) (hn : 2 ^ (-52 : ℤ) ≤ E.KP.noise) {prior f : List ℝ → ℝ}
    (hm : ∀ ys v, meanFn (E.M.new 1) ys 1 v 0 = prior v) (hf : InKernelBall (BaseK.mk' E.KP d : BaseK E.K).op prior d alpha f)
    {afun : List XR → XR} {F : List ℝ → ℝ} (hF1 : ∀ y, F [y] = y)
    (c : Int) (u0 : ℝ × ℝ) (ops : List (BoOp XR (GpState E))) (hops : ∀ o ∈ ops, OptimizesOp d f afun o) (st : BoState XR (GpState E))
    (h : runOps P ops (newBo P c (Gp.new E u0)) = some st) (pre rest : List (Event XR (GpState E))) (g : GpState E) (it : Int)
    (htr : st.trace = pre ++ .acqui g it :: rest) (hdata : ∃ p ∈ expect pre, p.1.length = d) {x : List ℝ} (hx : x ∈ S)
    (hnear : UcbNearBest g F alpha eps S x) :
    ∃ mean var, Predicts g mean var ∧ ∀ q ∈ S, f q ≤ f x + eps + 2 * alpha * √(var x) := by
  obtain ⟨mean, var, h1, h2, -⟩ := near_decision hE hP hh hS h0 hn hm hf hF1 c u0 ops hops st h pre rest g it htr hdata hx hnear
  exact ⟨mean, var, h1, h2⟩

/-- **C109**: convergence.  The optimizer of the acquisition function may be anything; suppose that in this run every point it found had an upper
confidence bound within `eps` of the highest on `S`.  If `S` is divided into `m` cells of squared kernel diameter at most `w` and the run has more than
`n m` iterations, the best observation is within `eps + 2 alpha sqrt(noise + (noise + 1e-8) / n + w)` of every value of `f` on `S`. -/
theorem C109_converges (hE : LawfulEnv E) (hP : P.ops = gpOps E u junkC junkA hp) (hh : P.hpPeriod ≤ 0) {d : Nat} {S : Set (List ℝ)}
    (hS : ∀ v ∈ S, v.length = d) {alpha eps : ℝ} (h0 : 0 ≤ alpha) (hn : 2 ^ (-52 : ℤ) ≤ E.KP.noise) {prior f : List ℝ → ℝ}
    (hm : ∀ ys v, meanFn (E.M.new 1) ys 1 v 0 = prior v) (hf : InKernelBall (BaseK.mk' E.KP d : BaseK E.K).op prior d alpha f)
    {afun : List XR → XR} {F : List ℝ → ℝ} (hF : ∀ l, afun (l.map XR.fin) = XR.fin (F l)) (hF1 : ∀ y, F [y] = y)
    (c : Int) (u0 : ℝ × ℝ) (ops : List (BoOp XR (GpState E))) (hops : ∀ o ∈ ops, OptimizesOp d f afun o) (st : BoState XR (GpState E))
    (h : runOps P ops (newBo P c (Gp.new E u0)) = some st)
    (N : Int) (hN : P.stop = [maxIterations N]) (sf : StateFun XR (GpState E)) (hsf : Evaluates d f sf) (reset : Bool) (fuel' : Nat)
    (st' : BoState XR (GpState E)) (hrun : optimize P sf afun reset fuel' st = .ok st')
    (hnear : ∀ pre g it x r post, st'.trace = st.trace ++ pre ++ .acqui g it :: .call x r :: post →
      ∃ v ∈ S, x = v.map XR.fin ∧ UcbNearBest g F alpha eps S v)
    {m : Nat} {w : ℝ} (hcell : CellsOf (BaseK.mk' E.KP d : BaseK E.K).op S m w) (n : Nat) (hn0 : 0 < n) (hnN : ((n * m : Nat) : Int) < N) :
    ∃ o y, bestObservation afun st' = some o ∧ afun o = XR.fin y ∧
      ∀ q ∈ S, f q ≤ y + eps + 2 * alpha * √(E.KP.noise + (E.KP.noise + 1e-8) / n + w) := by
  classical
  obtain ⟨cell, hcell⟩ := hcell
  have h' : runOps P (ops ++ [.optimize sf afun reset fuel']) (newBo P c (Gp.new E u0)) = some st' := by
    have : ∀ (os : List (BoOp XR (GpState E))) (s : BoState XR (GpState E)), runOps P os s = some st → runOps P (os ++ [.optimize sf afun reset fuel']) s = some st' := by
      intro os
      induction os with
      | nil => intro s hs; simp only [runOps, Option.some.injEq] at hs; subst hs; simp [runOps, runOp, hrun]
      | cons o os ih =>
        intro s hs
        simp only [List.cons_append, runOps] at hs ⊢
        cases hr : runOp P o s with
        | ok q => rw [hr] at hs; exact ih q hs
        | throw e q => rw [hr] at hs; exact ih q hs
        | ub => rw [hr] at hs; cases hs
        | diverge => rw [hr] at hs; cases hs
    exact this ops _ h
  have hops2 : ∀ o ∈ ops ++ [.optimize sf afun reset fuel'], OptimizesOp d f afun o := by
    intro o ho
    rcases List.mem_append.1 ho with ho | ho
    · exact hops o ho
    · rw [List.mem_singleton.1 ho]; exact ⟨hsf, rfl⟩
  have hon := honest_history _ hops2 c _ st' h'
  -- the iterations of this run
  obtain ⟨pts, vs0, m0, k, -, -, -, -, -, hl⟩ := optimize_ok hrun
  obtain ⟨seg, xs, vs, hs⟩ := hl.sum
  have hk := hl.count_maxIterations hN
  have hcur : (initState reset st).currentIteration = 0 := by cases reset <;> rfl
  simp only [hcur] at hk
  have hbase : (initState reset st).trace = st.trace ++ [.start reset] := by cases reset <;> rfl
  have htr := hs.trace
  simp only [hbase] at htr
  have hdec : Decided seg := by
    obtain ⟨seg', h1, h2⟩ := hl.decided
    simp only [hbase] at h1
    rw [htr] at h1
    rw [List.append_cancel_left h1]; exact h2
  have hquiet : Event.start true ∉ seg := by
    have hg := optimize_grows (fun _ => True) P sf afun reset fuel' (fun _ _ _ _ _ => trivial) (fun _ _ _ _ => trivial) st
    rw [hrun] at hg
    obtain ⟨sg, h1, h2⟩ := hg
    have h3 : sg = retEvents pts vs0 ++ seg := by
      have : st.trace ++ [.start reset] ++ sg = st.trace ++ [.start reset] ++ (retEvents pts vs0 ++ seg) := by
        rw [← List.append_assoc _ (retEvents pts vs0), ← htr, h1]; rfl
      exact List.append_cancel_left this
    intro hmem
    exact h2 _ (by rw [h3]; exact List.mem_append_right _ hmem)
  -- every iteration evaluates a point of `S`
  have hchoice : ∀ p x r q, seg = p ++ .call x r :: q → ∃ p' g it v, p = p' ++ [.acqui g it] ∧ v ∈ S ∧ x = v.map XR.fin ∧ UcbNearBest g F alpha eps S v := by
    intro p x r q he
    obtain ⟨p', g, it, rfl⟩ := hdec p x r q he
    obtain ⟨v, h1, h2, h3⟩ := hnear ([.start reset] ++ retEvents pts vs0 ++ p') g it x r q (by rw [htr, he]; simp)
    exact ⟨p', g, it, v, rfl, h1, h2, h3⟩
  have hinS : ∀ X ∈ callPts seg, ∃ v ∈ S, X = v.map XR.fin := by
    intro X hX
    obtain ⟨p, x, r, q, he, hx, -⟩ := callPts_split (fun Y => Y = X) seg 0 (List.countP_pos_iff.2 ⟨X, hX, by simp⟩)
    obtain ⟨-, -, -, v, -, h1, h2, -⟩ := hchoice p x r q he
    exact ⟨v, h1, hx ▸ h2⟩
  obtain ⟨e, hcount⟩ := exists_cell (callPts seg) (fun X => cell ((reals? X).getD [])) n (by rw [hs.pts, hs.xlen]; omega)
  set Q : List XR → Prop := fun X => ∃ v ∈ S, X = v.map XR.fin ∧ cell v = e with hQ
  have hcount' : n + 1 ≤ (callPts seg).countP fun X => decide (Q X) := by
    refine hcount.trans (List.countP_mono_left fun X hX h1 => ?_)
    obtain ⟨v, hv, rfl⟩ := hinS X hX
    simp only [reals?_map, Option.getD_some, decide_eq_true_eq] at h1
    exact decide_eq_true ⟨v, hv, rfl, h1⟩
  obtain ⟨p0, X, r, q, he, hXQ, hc⟩ := callPts_split Q seg n hcount'
  obtain ⟨p, g, it, x, rfl, hx, rfl, hxn⟩ := hchoice p0 X r q he
  have hxe : cell x = e := by
    obtain ⟨v, -, h1, h2⟩ := hXQ
    have : v = x := (List.map_injective_iff.2 (fun a b h => Xt.fin.inj h) h1).symm
    rw [← this]; exact h2
  have hc' : n ≤ (callPts p).countP fun X => decide (Q X) := by
    rw [callPts_append] at hc
    simpa [callPts] using hc
  -- points of the same cell had been evaluated `n` times
  have hret : ∀ X r, Q X → Event.call X r ∈ seg → ∃ v, r = .ret v ∧ v.all (fun y => isFinite y) = true := by
    rintro X r ⟨v, hv, rfl, -⟩ hr
    have h2 : HonestEv d f (Event.call (v.map XR.fin) r : Event XR (GpState E)) := hon _ (by rw [htr]; exact List.mem_append_right _ hr)
    exact ⟨[XR.fin (f v)], h2 v (hS v hv) rfl, by simp only [List.all_cons, List.all_nil, Bool.and_true]; exact (XR.isFinite_iff _).2 ⟨_, rfl⟩⟩
  have hpseg : ∀ ev ∈ p, ev ∈ seg := by intro ev hev; rw [he]; simp [hev]
  set pre := st.trace ++ [.start reset] ++ retEvents pts vs0 ++ p with hpre
  have hcnt : n ≤ ((expect pre).map Prod.fst).countP fun X => decide (Q X) := by
    have h2 := countP_expectFrom Q (p := p) (acc := expect (st.trace ++ [.start reset] ++ retEvents pts vs0))
      (fun hm => hquiet (hpseg _ hm)) (fun X r hX hr => hret X r hX (hpseg _ hr))
    have h3 : expect pre = expectFrom (expect (st.trace ++ [.start reset] ++ retEvents pts vs0)) p := by
      rw [hpre, expect, expectFrom_append]; rfl
    rw [h3]; omega
  have hdata : ∃ p ∈ expect pre, p.1.length = d := by
    obtain ⟨X, hX, hXq⟩ := List.countP_pos_iff.1 (lt_of_lt_of_le hn0 hcnt)
    obtain ⟨a, ha, hae⟩ := List.mem_map.1 hX
    obtain ⟨v, hv, h1, -⟩ := of_decide_eq_true hXq
    exact ⟨a, ha, by rw [hae, h1, List.length_map]; exact hS v hv⟩
  have hw : 0 ≤ w := by have := hcell x hx x hx rfl; linarith
  obtain ⟨mean, var, -, hopt, hvar⟩ := near_decision hE hP hh hS h0 hn hm hf hF1 c u0 _ hops2 st' h' pre (.call (x.map XR.fin) r :: q) g it
    (by rw [htr, he, hpre]; simp) hdata hx hxn
  have hnoise : (0 : ℝ) < E.KP.noise := lt_of_lt_of_le (by positivity) hn
  have hv : var x ≤ E.KP.noise + (E.KP.noise + 1e-8) / n + w := by
    refine (hvar Q w hw ?_ (by omega)).trans (add_le_add_left (add_le_add_right (div_le_div_of_nonneg_left (by positivity) (by exact_mod_cast hn0) (by exact_mod_cast hcnt)) _) _)
    rintro y - ⟨v, hv, h1, h2⟩
    have : v = y := (List.map_injective_iff.2 (fun a b h => Xt.fin.inj h) h1).symm
    subst this
    exact hcell v hv x hx (h2.trans hxe.symm)
  -- its value is stored
  have hinv : DataInv st' := (fixed_history hP hh c u0 _ st' h').inv
  have hstored : ∃ j : Nat, st'.observations[j]? = some [XR.fin (f x)] := by
    have hcalls : 0 < ((expect st'.trace).map Prod.fst).count (x.map XR.fin) := by
      have h3 := count_expectFrom (x := x.map XR.fin) (p := seg) (acc := expect (st.trace ++ [.start reset] ++ retEvents pts vs0)) hquiet
        (fun r hr => hret _ r hXQ hr)
      have h4 : expect st'.trace = expectFrom (expect (st.trace ++ [.start reset] ++ retEvents pts vs0)) seg := by
        rw [htr, expect, expectFrom_append]; rfl
      have h5 : 0 < (callPts seg).count (x.map XR.fin) := by
        refine List.count_pos_iff.2 ?_
        rw [he, callPts_append]
        simp [callPts]
      rw [h4]; omega
    obtain ⟨⟨a, o⟩, ha, hae⟩ := List.mem_map.1 (List.count_pos_iff.1 hcalls)
    have ho := honest_expect hon a o ha x (hS x hx) hae
    rw [← hinv.zip] at ha
    rw [ho] at ha
    exact List.getElem?_of_mem (List.of_mem_zip ha).2
  obtain ⟨j, hj⟩ := hstored
  have hfinobs : ∀ v ∈ st'.observations, ∃ l : List ℝ, v = l.map XR.fin := fun v hv => (allFinite_allFin (hinv.fin v hv)).exists_map
  obtain ⟨i, s, o, ho, -, hb, -, hmax, -⟩ := C03_best P c (Gp.new E u0) _ st' h' (by intro hnil; rw [hnil] at hj; simp at hj) afun (by
    intro v hv
    obtain ⟨l, rfl⟩ := hfinobs v hv
    rw [hF]; rfl)
  obtain ⟨l, rfl⟩ := hfinobs o (List.mem_of_getElem? ho)
  refine ⟨_, F l, hb, hF l, fun q hq => ?_⟩
  have h3 := hmax j _ hj
  have h4 : afun [XR.fin (f x)] = XR.fin (f x) := by
    have := hF [f x]
    rw [hF1] at this; exact this
  rw [h4, hF, XR.le_fin] at h3
  have h5 := hopt q hq
  have h6 := mul_le_mul_of_nonneg_left (Real.sqrt_le_sqrt hv) (by positivity : 0 ≤ 2 * alpha)
  linarith

/-- in a first run there are data when a decision is made -/
theorem first_run_data {d : Nat} {f : List ℝ → ℝ} {afun : List XR → XR} (hC : PartsOk P hp d 1) (hinit : ∀ st, P.initPts st d ≠ some [])
    {sf : StateFun XR (GpState E)} (hsf : Evaluates d f sf) {c : Int} {u0 : ℝ × ℝ} {reset : Bool} {fuel' : Nat} {st' : BoState XR (GpState E)}
    (hr : optimize P sf afun reset fuel' (newBo P c (Gp.new E u0)) = .ok st') (hev : ∀ e ∈ st'.trace, HonestEv d f e)
    {pre rest : List (Event XR (GpState E))} {g : GpState E} {it : Int} (htr : st'.trace = pre ++ .acqui g it :: rest) :
    ∃ p ∈ expect pre, p.1.length = d := by
  classical
  have hg := optimize_grows (fun _ => True) P sf afun reset fuel' (fun _ _ _ _ _ => trivial) (fun _ _ _ _ => trivial) (newBo P c (Gp.new E u0))
  rw [hr] at hg
  obtain ⟨sg, hg1, hg2⟩ := hg
  obtain ⟨pts, vs0, m0, k, -, hpts, hlen, -, -, hl⟩ := optimize_ok hr
  have hruns : runsInit reset (newBo P c (Gp.new E u0)) := by
    simp [runsInit, newBo]
  rw [if_pos hruns, hsf.1] at hpts
  obtain ⟨seg, xs, vs, hs⟩ := hl.sum
  have hbase : (initState reset (newBo P c (Gp.new E u0))).trace = [.start reset] := by cases reset <;> rfl
  have ht := hs.trace
  simp only [hbase] at ht
  obtain ⟨x, pts', rfl⟩ : ∃ x pts', pts = x :: pts' := by
    cases pts with
    | nil => exact absurd hpts (hinit _)
    | cons x l => exact ⟨x, l, rfl⟩
  obtain ⟨v, vs0', rfl⟩ : ∃ v vs', vs0 = v :: vs' := by
    cases vs0 with
    | nil => simp at hlen
    | cons x l => exact ⟨x, l, rfl⟩
  obtain ⟨pts2, e1, hok⟩ := hC.init (initState reset (newBo P c (Gp.new E u0)))
  rw [hpts, Option.some.injEq] at e1
  subst e1
  have hx := hok x (by simp)
  obtain ⟨a, rfl⟩ : ∃ a : List ℝ, x = a.map XR.fin := hx.1.exists_map
  have hal : a.length = d := by simpa using hx.2
  -- the decision comes after the first evaluation
  have htr' : [Event.start reset, .call (a.map XR.fin) (.ret v)] ++ (retEvents pts' vs0' ++ seg) = pre ++ .acqui g it :: rest := by
    rw [← htr, ht]; simp [retEvents]
  obtain ⟨p1, rfl⟩ : ∃ p1, pre = [Event.start reset, .call (a.map XR.fin) (.ret v)] ++ p1 := by
    match pre, htr' with
    | [], h => simp at h
    | [e], h => simp at h
    | e1 :: e2 :: p1, h =>
      simp only [List.cons_append, List.cons.injEq] at h
      exact ⟨p1, by rw [← h.1, ← h.2.1]; rfl⟩
  have hquiet : Event.start true ∉ Event.call (a.map XR.fin) (.ret v) :: p1 := by
    have h1 : [Event.start reset] ++ sg = [Event.start reset] ++ ((Event.call (a.map XR.fin) (.ret v) :: p1) ++ .acqui g it :: rest) := by
      have : st'.trace = [.start reset] ++ sg := by rw [hg1]; cases reset <;> rfl
      rw [← this, htr]; simp
    intro hmem
    exact hg2 _ (by rw [List.append_cancel_left h1]; exact List.mem_append_left _ hmem) 
  have h3 := count_expectFrom (x := a.map XR.fin) (p := Event.call (a.map XR.fin) (.ret v) :: p1) (acc := expect ([.start reset] : List (Event XR (GpState E)))) hquiet (fun r hr => by
    have h2 : HonestEv d f (Event.call (a.map XR.fin) r : Event XR (GpState E)) := hev _ (by
      rw [htr]
      refine List.mem_append_left _ ?_
      simp only [List.cons_append, List.nil_append, List.mem_cons]
      exact Or.inr (by simpa using hr))
    exact ⟨[XR.fin (f a)], h2 a hal rfl, by simp only [List.all_cons, List.all_nil, Bool.and_true]; exact (XR.isFinite_iff _).2 ⟨_, rfl⟩⟩)
  have h4 : expect ([Event.start reset, .call (a.map XR.fin) (.ret v)] ++ p1) =
      expectFrom (expect ([.start reset] : List (Event XR (GpState E)))) (Event.call (a.map XR.fin) (.ret v) :: p1) := by
    rw [expect, expect, ← expectFrom_append]; rfl
  have h5 : 0 < (callPts (Event.call (a.map XR.fin) (.ret v) :: p1)).count (a.map XR.fin) := List.count_pos_iff.2 (by simp [callPts])
  have h6 : 0 < ((expect ([Event.start reset, .call (a.map XR.fin) (.ret v)] ++ p1)).map Prod.fst).count (a.map XR.fin) := by rw [h4]; omega
  obtain ⟨b, hb, hbe⟩ := List.mem_map.1 (List.count_pos_iff.1 h6)
  exact ⟨b, hb, by rw [hbe, List.length_map, hal]⟩

/-- **C109**: a first run.  With an optimizer of the acquisition function that maximises within `eps` on `S`, the first run of a new `BOptimizer` ends without
failure, and the bound of `C109_converges` is met by its result. -/
theorem C109_first_run (hE : LawfulEnv E) (hP : P.ops = gpOps E u junkC junkA hp) (hh : P.hpPeriod ≤ 0) {d : Nat} {S : Set (List ℝ)}
    (hS : ∀ v ∈ S, v.length = d) {alpha eps : ℝ} (h0 : 0 ≤ alpha) (hA : P.acqui = ucbObj alpha) (hn : 2 ^ (-52 : ℤ) ≤ E.KP.noise) {prior f : List ℝ → ℝ}
    (hm : ∀ ys v, meanFn (E.M.new 1) ys 1 v 0 = prior v) (hf : InKernelBall (BaseK.mk' E.KP d : BaseK E.K).op prior d alpha f)
    {afun : List XR → XR} {F : List ℝ → ℝ} (hF : ∀ l, afun (l.map XR.fin) = XR.fin (F l)) (hF1 : ∀ y, F [y] = y)
    (hopt : ∀ st, MaximisesWithin (fun obj => P.acquiOpt st obj (P.startPt st d) P.bounded) S eps) (hthrow : ∀ st obj x b, P.acquiOpt st obj x b ≠ .threw)
    (hfB : ∃ B, ∀ v ∈ S, f v ≤ B) (hkB : ∃ B, ∀ v ∈ S, (BaseK.mk' E.KP d : BaseK E.K).op v v ≤ B)
    (hC : PartsOk P hp d 1) (hinit : ∀ st, P.initPts st d ≠ some [])
    (N : Int) (hN : P.stop = [maxIterations N]) (sf : StateFun XR (GpState E)) (hsf : Evaluates d f sf) (hsf1 : ObjectiveOk d 1 sf)
    (c : Int) (u0 : ℝ × ℝ) (reset : Bool) (fuel' : Nat) (hfuel : N < fuel')
    {m : Nat} {w : ℝ} (hcell : CellsOf (BaseK.mk' E.KP d : BaseK E.K).op S m w) (n : Nat) (hn0 : 0 < n) (hnN : ((n * m : Nat) : Int) < N) :
    ∃ st' o y, optimize P sf afun reset (fuel' + 1) (newBo P c (Gp.new E u0)) = .ok st' ∧ bestObservation afun st' = some o ∧ afun o = XR.fin y ∧
      ∀ q ∈ S, f q ≤ y + eps + 2 * alpha * √(E.KP.noise + (E.KP.noise + 1e-8) / n + w) := by
  obtain ⟨Bf, hfB⟩ := hfB
  obtain ⟨Bk, hkB⟩ := hkB
  -- UCB on `S`, given data
  have hucb : ∀ {g : GpState E} {data : List (List XR × List XR)}, FixRel g data → HonestData d f data → (∃ p ∈ data, p.1.length = d) → ∀ it mean var,
      Predicts g mean var → (∀ v ∈ S, (P.acqui g it afun (v.map XR.fin) false).1 = XR.fin (F (mean v) + alpha * √(var v))) ∧
        ∃ B, ∀ v ∈ S, F (mean v) + alpha * √(var v) ≤ B := by
    intro g data hrel hon hdata it mean var hpr
    obtain ⟨hbars, -, -, hvar⟩ := honest_predictions hE h0 hn hm hf hF1 hrel hon hdata hpr
    refine ⟨fun v _ => ?_, Bf + 2 * alpha * √(Bk + E.KP.noise), fun v hv => ?_⟩
    · rw [hA]
      simp only [ucbObj, reals?_map, Option.bind_some, Acqui.ucb, Bool.false_eq_true, if_false, hpr.view, Option.map_some, realAgg_eq hF]
    · have h1 := (hbars v (hS v hv)).2
      have h2 := hfB v hv
      have h3 := mul_le_mul_of_nonneg_left (Real.sqrt_le_sqrt ((hvar v (hS v hv)).trans (add_le_add_left (hkB v hv) _))) h0
      linarith
  have hret : ∃ st', optimize P sf afun reset (fuel' + 1) (newBo P c (Gp.new E u0)) = .ok st' := by
    refine first_run_returns (f := f) hE hP hh (fun st' h' => ?_) hC hinit N hN sf hsf hsf1 c u0 reset fuel' hfuel
    obtain ⟨hdat, hdat'⟩ := h'.data
    obtain ⟨mean, var, hpr⟩ := fits_predicts (h'.rel.model.1.fits hE)
    obtain ⟨hv1, hv2⟩ := hucb h'.rel.model hdat hdat' st'.currentIteration mean var hpr
    obtain ⟨x, hx, h1, -⟩ := hopt (st'.push (.acqui st'.model st'.currentIteration)) (fun x g => P.acqui st'.model st'.currentIteration afun x g) _ hv1 hv2
    refine ⟨_, h1, ?_, by simpa using hS x hx⟩
    intro z hz
    obtain ⟨a, -, rfl⟩ := List.mem_map.1 hz
    exact ⟨a, rfl⟩
  obtain ⟨st', hr⟩ := hret
  have hops : ∀ o ∈ [BoOp.optimize sf afun reset (fuel' + 1)], OptimizesOp d f afun o := by
    intro o ho; rw [List.mem_singleton.1 ho]; exact ⟨hsf, rfl⟩
  have hr' : runOps P [.optimize sf afun reset (fuel' + 1)] (newBo P c (Gp.new E u0)) = some st' := by simp [runOps, runOp, hr]
  obtain ⟨o, y, h1, h2, h3⟩ := C109_converges hE hP hh hS h0 hn hm hf hF hF1 c u0 [] (by simp) _ rfl N hN sf hsf reset _ st' hr (eps := eps) (fun pre g it x r post htr => by
    have htr : st'.trace = pre ++ .acqui g it :: .call x r :: post := by rw [htr]; simp [newBo]
    obtain ⟨q, nd, x', r', post', h1, hq1, hq2, -, rfl, h3⟩ := runOps_traceT (chosen_step (D := fun n => n = d) (afun := afun) hthrow) [.optimize sf afun reset (fuel' + 1)]
      (fun f' a r'' n' hmem => by
        simp only [List.mem_singleton, BoOp.optimize.injEq] at hmem
        obtain ⟨rfl, rfl, -, -⟩ := hmem
        exact ⟨rfl, hsf.1⟩) _ st' chosen_nil hr' pre g it _ htr
    simp only [List.cons.injEq, Event.call.injEq] at h1
    obtain ⟨⟨rfl, -⟩, -⟩ := h1
    have hrel : FixRel g (expect pre) := (fixed_history hP hh c u0 _ st' hr').tr pre (.acqui g it) ⟨.call x r :: post, by rw [htr]; simp⟩
    have hev := honest_history _ hops c _ st' hr'
    have hon : HonestData nd f (expect pre) := honest_expect fun e he => hev e (by rw [htr]; exact List.mem_append_left _ he)
    have hdata : ∃ p ∈ expect pre, p.1.length = nd := first_run_data hC hinit hsf hr hev htr
    obtain ⟨mean, var, hpr⟩ := fits_predicts ((C90_predictions_from_all_data hE hP c u0 _ st' hr' pre _ g it).1 htr)
    obtain ⟨hv1, hv2⟩ := hucb hrel hon hdata it mean var hpr
    obtain ⟨v, hv, h4, h5⟩ := hopt q (fun x g' => P.acqui g it afun x g') _ hv1 hv2
    refine ⟨v, hv, ?_, fun mean' var' hpr' q hq => ?_⟩
    · have : OptRes.point x = OptRes.point (v.map XR.fin) := h3.symm.trans h4
      exact OptRes.point.inj this
    · have e1 : ∀ v, mean' v = mean v ∧ var' v = var v := by
        intro v
        obtain ⟨m1, a1, a2⟩ := hpr v
        obtain ⟨m2, b1, b2⟩ := hpr' v
        rw [a1, Option.some.injEq, Prod.mk.injEq] at b1
        exact ⟨by rw [a2, b2, b1.1], b1.2.symm⟩
      rw [(e1 q).1, (e1 q).2, (e1 v).1, (e1 v).2]
      exact h5 q hq) hcell n hn0 hnN
  exact ⟨st', o, y, hr, h1, h2, h3⟩

/-- **C109**: the search space of limbo.  With `m` slices per axis, the unit box of dimension `d` has `m ^ d` cells whose squared kernel diameter is at most
`L d / m^2`, where `L` is `sigma_sq / l^2` for `kernel::Exp`, `6 sigma_sq / l^2` for `MaternThreeHalves` and `10 sigma_sq / l^2` for `MaternFiveHalves`. -/
theorem C109_unit_box (E : GpEnv) {s l : ℝ} (hs : 0 ≤ s) (hl : 0 < l) (d m : Nat) (hm : 0 < m) :
    (E.K = expKernel s l → CellsOf (BaseK.mk' E.KP d : BaseK E.K).op (UnitBox d) (m ^ d) (s / l ^ 2 * (d / (m : ℝ) ^ 2))) ∧
    (E.K = matern32 s l → CellsOf (BaseK.mk' E.KP d : BaseK E.K).op (UnitBox d) (m ^ d) (6 * s / l ^ 2 * (d / (m : ℝ) ^ 2))) ∧
    (E.K = matern52 s l → CellsOf (BaseK.mk' E.KP d : BaseK E.K).op (UnitBox d) (m ^ d) (10 * s / l ^ 2 * (d / (m : ℝ) ^ 2))) := by
  obtain ⟨K, KP, M, llt⟩ := E
  refine ⟨?_, ?_, ?_⟩
  · rintro rfl; exact cells_of_lipschitz hm (by positivity) fun p q _ _ => exp_lip hs hl KP d p q
  · rintro rfl; exact cells_of_lipschitz hm (by positivity) fun p q _ _ => m32_lip hs hl KP d p q
  · rintro rfl; exact cells_of_lipschitz hm (by positivity) fun p q _ _ => m52_lip hs hl KP d p q

/-- **C109**: the limit.  Let the kernel be one of the three isotropic ones.  For every `delta > 0` there is a number `N0` of iterations, the same for all
objectives and all ways to configure the rest of the optimizer, from which on the best observation is within `eps + 2 alpha sqrt(noise) + delta` of every
value of the objective on the unit box. -/
theorem C109_limit {E : GpEnv} (hE : LawfulEnv E) (hK : ∃ s l : ℝ, 0 ≤ s ∧ 0 < l ∧ (E.K = expKernel s l ∨ E.K = matern32 s l ∨ E.K = matern52 s l))
    (hn : 2 ^ (-52 : ℤ) ≤ E.KP.noise) (d : Nat) {alpha : ℝ} (h0 : 0 ≤ alpha) {delta : ℝ} (hdelta : 0 < delta) : ∃ N0 : Int,
    ∀ (u : Nat → Nat → ℝ × ℝ) (junkC : List (List ℝ) → List (List ℝ) → GpState E → Nat → Nat → ℝ) (junkA : List ℝ → List ℝ → GpState E → Nat → Nat → ℝ)
      (hp : HpFunctor E) (P : BoParams XR (GpState E)), P.ops = gpOps E u junkC junkA hp → P.hpPeriod ≤ 0 → ∀ (eps : ℝ) (prior f : List ℝ → ℝ),
      (∀ ys v, meanFn (E.M.new 1) ys 1 v 0 = prior v) → InKernelBall (BaseK.mk' E.KP d : BaseK E.K).op prior d alpha f →
      ∀ (afun : List XR → XR) (F : List ℝ → ℝ), (∀ l, afun (l.map XR.fin) = XR.fin (F l)) → (∀ y, F [y] = y) →
      ∀ (c : Int) (u0 : ℝ × ℝ) (ops : List (BoOp XR (GpState E))), (∀ o ∈ ops, OptimizesOp d f afun o) →
      ∀ st, runOps P ops (newBo P c (Gp.new E u0)) = some st → ∀ N : Int, P.stop = [maxIterations N] → N0 < N →
      ∀ sf : StateFun XR (GpState E), Evaluates d f sf → ∀ (reset : Bool) (fuel' : Nat) (st' : BoState XR (GpState E)),
      optimize P sf afun reset fuel' st = .ok st' →
      (∀ pre g it x r post, st'.trace = st.trace ++ pre ++ .acqui g it :: .call x r :: post →
        ∃ v ∈ UnitBox d, x = v.map XR.fin ∧ UcbNearBest g F alpha eps (UnitBox d) v) →
      ∃ o y, bestObservation afun st' = some o ∧ afun o = XR.fin y ∧ ∀ q ∈ UnitBox d, f q ≤ y + eps + 2 * alpha * √E.KP.noise + delta := by
  obtain ⟨s, l, hs, hl, hK⟩ := hK
  have hcell : ∃ L : ℝ, 0 ≤ L ∧ ∀ m : Nat, 0 < m → CellsOf (BaseK.mk' E.KP d : BaseK E.K).op (UnitBox d) (m ^ d) (L * (d / (m : ℝ) ^ 2)) := by
    rcases hK with h | h | h
    · exact ⟨s / l ^ 2, by positivity, fun m hm => (C109_unit_box E hs hl d m hm).1 h⟩
    · exact ⟨6 * s / l ^ 2, by positivity, fun m hm => (C109_unit_box E hs hl d m hm).2.1 h⟩
    · exact ⟨10 * s / l ^ 2, by positivity, fun m hm => (C109_unit_box E hs hl d m hm).2.2 h⟩
  obtain ⟨L, hL, hcell⟩ := hcell
  have hnoise : (0 : ℝ) < E.KP.noise := lt_of_lt_of_le (by positivity) hn
  set C := E.KP.noise + 1e-8 + L * d with hC
  have hC0 : 0 < C := by positivity
  set del := delta / (2 * alpha + 1) with hdel
  have hdel0 : 0 < del := by positivity
  obtain ⟨n, hnC⟩ := exists_nat_gt (C / del ^ 2)
  have hnr : (0 : ℝ) < n := lt_of_le_of_lt (by positivity) hnC
  have hn0 : 0 < n := by exact_mod_cast hnr
  refine ⟨((n * n ^ d : Nat) : Int), ?_⟩
  intro u junkC junkA hp P hP hh eps prior f hm hf afun F hF hF1 c u0 ops hops st h N hN hnN sf hsf reset fuel' st' hrun hnear
  obtain ⟨o, y, h1, h2, h3⟩ := C109_converges hE hP hh (S := UnitBox d) (fun v hv => hv.1) h0 hn hm hf hF hF1 c u0 ops hops st h N hN sf hsf reset fuel' st' hrun hnear
    (hcell n hn0) n hn0 hnN
  refine ⟨o, y, h1, h2, fun q hq => (h3 q hq).trans ?_⟩
  have hb : (E.KP.noise + 1e-8) / n + L * (d / (n : ℝ) ^ 2) ≤ del ^ 2 := by
    have e1 : L * (d / (n : ℝ) ^ 2) ≤ L * d / n := by
      rw [← mul_div_assoc]
      refine div_le_div_of_nonneg_left (by positivity) hnr ?_
      have : (1 : ℝ) ≤ n := by exact_mod_cast hn0
      nlinarith
    have e2 : C / n ≤ del ^ 2 := by
      rw [div_le_iff₀ hnr]
      rw [div_lt_iff₀ (by positivity)] at hnC
      linarith
    have e3 : C / n = (E.KP.noise + 1e-8) / n + L * d / n := by rw [hC, add_div]
    linarith
  have hs : √(E.KP.noise + (E.KP.noise + 1e-8) / n + L * (d / (n : ℝ) ^ 2)) ≤ √E.KP.noise + del := by
    rw [Real.sqrt_le_left (by positivity), add_sq, Real.sq_sqrt hnoise.le]
    have : 0 ≤ 2 * √E.KP.noise * del := by positivity
    linarith
  have h4 := mul_le_mul_of_nonneg_left hs (by positivity : 0 ≤ 2 * alpha)
  have h5 : 2 * alpha * del ≤ delta := by
    rw [hdel, ← mul_div_assoc, div_le_iff₀ (by positivity)]
    nlinarith
  nlinarith

/-! A concrete optimizer: that of `Props/Regret.lean`, but searching all of [0,1] for the point to evaluate, with an exact-arithmetic global optimizer of
accuracy 1/10, for 17 iterations; two slices of [0,1] and `n = 8`. -/

open Classical in
/-- a global optimizer of accuracy 1/10 on `S` -/
noncomputable def exGlobal (S : Set (List ℝ)) (obj : ObjFn XR) : OptRes XR :=
  if h : ∃ x ∈ S, ∀ q ∈ S, ∀ a b, (obj (x.map XR.fin) false).1 = XR.fin a → (obj (q.map XR.fin) false).1 = XR.fin b → b ≤ a + 1 / 10
  then .point (h.choose.map XR.fin) else .ub

theorem exGlobal_maximises {S : Set (List ℝ)} (hS : S.Nonempty) : MaximisesWithin (exGlobal S) S (1 / 10) := by
  rintro obj F hF ⟨B, hB⟩
  have hbdd : BddAbove (F '' S) := ⟨B, by rintro _ ⟨v, hv, rfl⟩; exact hB v hv⟩
  obtain ⟨_, ⟨x, hx, rfl⟩, hlt⟩ := exists_lt_of_lt_csSup (hS.image F) (show sSup (F '' S) - 1 / 10 < sSup (F '' S) by norm_num)
  have h : ∃ x ∈ S, ∀ q ∈ S, ∀ a b, (obj (x.map XR.fin) false).1 = XR.fin a → (obj (q.map XR.fin) false).1 = XR.fin b → b ≤ a + 1 / 10 := by
    refine ⟨x, hx, fun q hq a b ha hb => ?_⟩
    rw [hF x hx] at ha
    rw [hF q hq] at hb
    rw [← Xt.fin.inj ha, ← Xt.fin.inj hb]
    have := le_csSup hbdd ⟨q, hq, rfl⟩
    linarith
  refine ⟨h.choose, h.choose_spec.1, by simp only [exGlobal, dif_pos h], fun q hq => ?_⟩
  exact h.choose_spec.2 q hq _ _ (hF _ h.choose_spec.1) (hF q hq)

noncomputable def exCoverP : BoParams XR (GpState exBallEnv) :=
  { exUcbP with acquiOpt := fun _ f _ _ => exGlobal (UnitBox 1) f, stop := [maxIterations 17] }

theorem exCover_parts : PartsOk exCoverP .none 1 1 where
  din_pos := one_pos
  dout_pos := one_pos
  init := exUcb_parts.init
  stop := by
    intro c hc st afun _
    rw [List.mem_singleton.1 hc]; simp [maxIterations]
  stats := exUcb_parts.stats
  hp := exUcb_parts.hp

theorem exBall_diag (v : List ℝ) : (BaseK.mk' exBallEnv.KP 1 : BaseK exBallEnv.K).op v v = 1 := by
  rw [op_fun]
  show (expKernel 1 1).kernel (IsoSt.mk' 1 1) v v = 1
  simp [expKernel, IsoSt.mk', sqDist_self]

example : ∃ st' o y, optimize exCoverP exUcbF (fun v => v.headD (XR.fin 0)) false 19 (newBo exCoverP 0 (Gp.new exBallEnv (0, 0))) = .ok st' ∧
    bestObservation (fun v => v.headD (XR.fin 0)) st' = some o ∧ o.headD (XR.fin 0) = XR.fin y ∧
      ∀ q ∈ UnitBox 1, exBallF q ≤ y + 1 / 10 + 2 * 3 * √(0.01 + (0.01 + 1e-8) / (8 : Nat) + 1 / 1 ^ 2 * ((1 : Nat) / ((2 : Nat) : ℝ) ^ 2)) := by
  refine C109_first_run exBallEnv_lawful rfl (by show (-1 : Int) ≤ 0; norm_num) (d := 1) (S := UnitBox 1) (fun v hv => hv.1) (by norm_num) rfl
    (by show (2 : ℝ) ^ (-52 : ℤ) ≤ 0.01; norm_num) (prior := fun _ => 0) (fun ys v => by rfl) exBall (F := fun l => l.headD 0) (fun l => by cases l <;> rfl)
    (fun y => rfl) (fun st => exGlobal_maximises (S := UnitBox 1) ⟨[0], rfl, by simp⟩) (fun st obj x b => ?_) ⟨3, fun v _ => ?_⟩ ⟨1, fun v _ => (exBall_diag v).le⟩
    exCover_parts (fun st h => ?_) 17 rfl exUcbF exUcb_evaluates exUcb_objective 0 (0, 0) false 18 (by norm_num)
    ((C109_unit_box exBallEnv zero_le_one one_pos 1 2 (by norm_num)).1 rfl) 8 (by norm_num) (by norm_num)
  · show exGlobal (UnitBox 1) obj ≠ .threw
    unfold exGlobal
    split <;> simp
  · unfold exBallF
    rw [op_fun]
    have : exBallEnv.K.kernel (BaseK.mk' exBallEnv.KP 1 : BaseK exBallEnv.K).inner [1 / 4] v ≤ 1 := by
      show (expKernel 1 1).kernel (IsoSt.mk' 1 1) _ _ ≤ 1
      simp only [expKernel, IsoSt.mk', mul_one, div_one, one_mul]
      rw [Real.exp_le_one_iff]
      have := sqDist_nonneg [1 / 4] v
      linarith
    linarith
  · simp [exCoverP, exUcbP] at h

/-! The GP of the example in `Props/Confidence.lean` has three observations, at 0 (twice) and 1/2; 1/4 is near to all of them in the sense of
`C103_near_observed_points`, with `w = 1/16` and `n = 3`. -/

example : (∀ x : List ℝ, x.length = 1 → x = [0] ∨ x = [1 / 2] → (BaseK.mk' exBallEnv.KP 1 : BaseK exBallEnv.K).op x x -
    2 * (BaseK.mk' exBallEnv.KP 1 : BaseK exBallEnv.K).op x [1 / 4] + (BaseK.mk' exBallEnv.KP 1 : BaseK exBallEnv.K).op [1 / 4] [1 / 4] ≤ 1 / 16) ∧
    ∀ [DecidablePred fun x : List ℝ => x = [0] ∨ x = [1 / 2]], 3 = [[0], [1 / 2], [0]].countP fun x : List ℝ => decide (x = [0] ∨ x = [1 / 2]) := by
  refine ⟨?_, by simp⟩
  rintro x - (rfl | rfl)
  · refine (exp_lip zero_le_one one_pos exBallEnv.KP 1 [0] [1 / 4]).trans (le_of_eq ?_)
    simp [sqDist, at']; norm_num
  · refine (exp_lip zero_le_one one_pos exBallEnv.KP 1 [1 / 2] [1 / 4]).trans (le_of_eq ?_)
    simp [sqDist, at']; norm_num

end Limbo
