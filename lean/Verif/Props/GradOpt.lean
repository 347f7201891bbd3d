import Verif.Lemmas.GradOpt2
import Verif.Lemmas.F64Laws

/-!
# C15, C16, C17 — Rprop, GradientAscent and Adam

All theorems of the first kind hold for every scalar type obeying the IEEE comparison laws (`LawfulArith`),
in particular for binary64 (`F64`) and for exact reals (`XR`), whatever the objective returns (NaN included).
-/

namespace Limbo

variable {α : Type}
open LawfulCmp LawfulArith

/-! ## C15 Rprop -/

/-- In bounded mode every queried point and the returned point are in `[0,1]^d`
(starting point without NaN; the objective, its gradient and the rounding are arbitrary). -/
theorem C15_rprop_in_bounds [ScalarFn α] [LawfulArith α] (f : ObjFn α) (init : List α)
    (hinit : ∀ x ∈ init, isNaN x = false) (iterations : Int) (epsStop : α) (s : RpropState α)
    (h : rpropRun f init true iterations epsStop = some s) :
    (∀ q ∈ s.trace, InUnitBox init.length q) ∧ InUnitBox init.length s.bestParams := by
  unfold rpropRun at h
  split_ifs at h
  let I : RpropState α → Prop := fun s => RpropShape init.length s ∧ (∀ d ∈ s.delta, GoodDelta d) ∧
    InUnitBox init.length s.params ∧ (∀ q ∈ s.trace, InUnitBox init.length q) ∧ InUnitBox init.length s.bestParams
  have hI := rpropLoop_inv (f := f) (b := true) (e := epsStop) I ?_ _ _ _ ?_ h
  · exact ⟨hI.2.2.2.1, hI.2.2.2.2⟩
  · rintro s s' st ⟨hs, hd, hp, ht, hb⟩ hstep
    have hs' := rpropStep_shape hs hstep
    obtain ⟨t1, -, -, t4⟩ := rpropStep_fields hstep
    obtain ⟨g, hg, hl, e1, e2, -, -⟩ := rpropStep_params hstep
    refine ⟨hs', ?_, ⟨hs'.params, ?_⟩, ?_, ?_⟩
    · rw [e2]; intro d hd'
      rw [List.mem_map] at hd'
      obtain ⟨r, hr, rfl⟩ := hd'
      obtain ⟨a, -, x, -, y, hy, z, -, rfl⟩ := mem_rpropCoords _ _ _ _ _ _ hr
      exact rpropCoord_delta _ _ _ _ (hd y hy)
    · rw [e1]; intro x hx
      rw [List.mem_map] at hx
      obtain ⟨r, hr, rfl⟩ := hx
      obtain ⟨a, -, x, -, y, hy, z, hz, rfl⟩ := mem_rpropCoords _ _ _ _ _ _ hr
      exact rpropCoord_box _ _ (hd y hy) (hp.2 z hz)
    · rw [t1]; intro q hq
      rcases List.mem_append.1 hq with hq | hq
      · exact ht q hq
      · simp only [List.mem_singleton] at hq; subst hq; exact hp
    · rw [t4]; split_ifs <;> assumption
  · have hbox := clampIf_box init hinit
    refine ⟨⟨by simp [rpropInit], by simp [rpropInit], by simp [rpropInit, length_clampIf]⟩, ?_, hbox, ?_, hbox⟩
    · intro d hd
      simp only [rpropInit, List.mem_map] at hd
      obtain ⟨_, _, rfl⟩ := hd
      exact goodDelta_init
    · intro q hq; simp [rpropInit] at hq

/-- The returned point is the first best of the visited points - unless no visited point had a value above `-inf`
(NaN or `-inf` everywhere), in which case the clamped starting point is returned. -/
theorem C15_rprop_returns_first_best [ScalarFn α] [LawfulCmp α] (f : ObjFn α) (init : List α) (bounded : Bool)
    (iterations : Int) (epsStop : α) (s : RpropState α)
    (h : rpropRun f init bounded iterations epsStop = some s) :
    FirstBest (fun q => (f q true).1) s.trace s.bestParams ∨
    (s.bestParams = clampIf bounded init ∧ ∀ q ∈ s.trace, lt negInf (f q true).1 = false) := by
  unfold rpropRun at h
  split_ifs at h
  have hI := rpropLoop_inv (f := f) (b := bounded) (e := epsStop) (RpropBest f (clampIf bounded init))
    (fun s s' st hs h => rpropStep_best hs h) _ _ _ ?_ h
  · rcases hI.2 with ⟨-, h2, h3⟩ | ⟨-, -, h3⟩
    · exact Or.inr ⟨h2, h3⟩
    · exact Or.inl h3
  · refine ⟨negInf_nan, Or.inl ⟨rfl, rfl, ?_⟩⟩
    intro q hq; simp [rpropInit] at hq

/-- Evaluation budget: at most `max(iterations,0)` evaluations (exactly that many if the stopping norm is never reached),
and with at least one iteration the first visited point is the (clamped) starting point. -/
theorem C15_rprop_budget [ScalarFn α] (f : ObjFn α) (init : List α) (bounded : Bool) (iterations : Int) (epsStop : α)
    (s : RpropState α) (h : rpropRun f init bounded iterations epsStop = some s) :
    s.trace.length ≤ iterations.toNat ∧
    ((∀ v : List α, lt (ScalarFn.norm v) epsStop = false) → s.trace.length = iterations.toNat) ∧
    (0 < iterations → s.trace.head? = some (clampIf bounded init)) := by
  unfold rpropRun at h
  split_ifs at h
  obtain ⟨a, -, c, d⟩ := rpropLoop_trace_len _ _ _ h
  simp only [rpropInit, List.length_nil, Nat.zero_add, List.nil_append] at a c d
  refine ⟨a, d, fun hpos => ?_⟩
  obtain ⟨t, ht⟩ := c (by omega)
  rw [← ht]; simp

/-- With at least one iteration the result is never worse than the clamped starting point. -/
theorem C15_rprop_never_worse_than_start [ScalarFn α] [LawfulCmp α] (f : ObjFn α) (init : List α) (bounded : Bool)
    (iterations : Int) (epsStop : α) (s : RpropState α) (hit : 0 < iterations)
    (hstart : lt negInf (f (clampIf bounded init) true).1 = true)
    (h : rpropRun f init bounded iterations epsStop = some s) :
    le (f (clampIf bounded init) true).1 (f s.bestParams true).1 = true := by
  have hb := (C15_rprop_budget f init bounded iterations epsStop s h).2.2 hit
  have hmem : clampIf bounded init ∈ s.trace := List.mem_of_mem_head? (by rw [hb]; rfl)
  rcases C15_rprop_returns_first_best f init bounded iterations epsStop s h with hfb | ⟨-, h2⟩
  · obtain ⟨hnn, pre, post, -, -, h3⟩ := hfb
    exact le_of_not_lt hnn (not_nan_of_lt hstart).2 (h3 _ hmem)
  · rw [h2 _ hmem] at hstart; simp at hstart

/-- Step sizes stay within `[1e-6, 50]`, for any rounding. -/
theorem C15_rprop_step_sizes [ScalarFn α] [LawfulArith α] (f : ObjFn α) (init : List α) (bounded : Bool)
    (iterations : Int) (epsStop : α) (s : RpropState α)
    (h : rpropRun f init bounded iterations epsStop = some s) :
    ∀ ds ∈ s.steps, ∀ d ∈ ds, le (lit (1/1000000)) d = true ∧ le d (lit 50) = true := by
  unfold rpropRun at h
  split_ifs at h
  let I : RpropState α → Prop := fun s => (∀ d ∈ s.delta, GoodDelta d) ∧ ∀ ds ∈ s.steps, ∀ d ∈ ds, GoodDelta d
  have hI := rpropLoop_inv (f := f) (b := bounded) (e := epsStop) I ?_ _ _ _ ?_ h
  · exact hI.2
  · rintro s s' st ⟨hd, hss⟩ hstep
    obtain ⟨-, t2, -, -⟩ := rpropStep_fields hstep
    obtain ⟨g, hg, hl, -, e2, -, -⟩ := rpropStep_params hstep
    have : ∀ d ∈ s'.delta, GoodDelta d := by
      rw [e2]; intro d hd'
      rw [List.mem_map] at hd'
      obtain ⟨r, hr, rfl⟩ := hd'
      obtain ⟨a, -, x, -, y, hy, z, -, rfl⟩ := mem_rpropCoords _ _ _ _ _ _ hr
      exact rpropCoord_delta _ _ _ _ (hd y hy)
    refine ⟨this, ?_⟩
    rw [t2]; intro ds hds
    rcases List.mem_append.1 hds with hds | hds
    · exact hss ds hds
    · simp only [List.mem_singleton] at hds; subst hds; exact this
  · refine ⟨?_, by simp [rpropInit]⟩
    intro d hd
    simp only [rpropInit, List.mem_map] at hd
    obtain ⟨_, _, rfl⟩ := hd
    exact goodDelta_init

/-- Exact arithmetic: every move goes uphill (or nowhere) in every coordinate. -/
theorem C15_rprop_moves_uphill (f : ObjFn XR) (init : List XR) (hinit : AllFin init) (bounded : Bool)
    (iterations : Int) (epsStop : XR) (s : RpropState XR)
    (h : rpropRun f init bounded iterations epsStop = some s) :
    s.trace.IsChain (UphillStep f) := by
  unfold rpropRun at h
  split_ifs at h
  let I : RpropState XR → Prop := fun s => RpropShape init.length s ∧ (∀ d ∈ s.delta, GoodDelta d) ∧
    (∀ x ∈ s.params, ∃ r : ℝ, x = XR.fin r ∧ (bounded = true → 0 ≤ r ∧ r ≤ 1)) ∧
    (s.trace ++ [s.params]).IsChain (UphillStep f)
  have hI := rpropLoop_inv (f := f) (b := bounded) (e := epsStop) I ?_ _ _ _ ?_ h
  · exact (List.isChain_append.1 hI.2.2.2).1
  · rintro s s' st ⟨hs, hd, hp, hc⟩ hstep
    have hs' := rpropStep_shape hs hstep
    obtain ⟨t1, -, -, t4⟩ := rpropStep_fields hstep
    obtain ⟨g, hg, hl, e1, e2, -, -⟩ := rpropStep_params hstep
    refine ⟨hs', ?_, ?_, ?_⟩
    · rw [e2]; intro d hd'
      rw [List.mem_map] at hd'
      obtain ⟨r, hr, rfl⟩ := hd'
      obtain ⟨a, -, x, -, y, hy, z, -, rfl⟩ := mem_rpropCoords _ _ _ _ _ _ hr
      exact rpropCoord_delta _ _ _ _ (hd y hy)
    · rw [e1]; intro x hx
      rw [List.mem_map] at hx
      obtain ⟨r, hr, rfl⟩ := hx
      obtain ⟨a, -, x, -, y, hy, z, hz, rfl⟩ := mem_rpropCoords _ _ _ _ _ _ hr
      obtain ⟨z, rfl, hzb⟩ := hp z hz
      have hup := rpropCoord_uphill bounded a (-x) (hd y hy) hzb
      rw [XR.neg_neg'] at hup
      obtain ⟨r, hr, -, hb⟩ := hup
      exact ⟨r, hr, hb⟩
    · rw [t1, List.isChain_append]
      refine ⟨hc, by simp, ?_⟩
      intro q hq q' hq'
      simp only [List.getLast?_append, List.getLast?_singleton, Option.some_or, Option.mem_def, Option.some.injEq] at hq
      simp only [List.head?_cons, Option.mem_def, Option.some.injEq] at hq'
      subst hq hq'
      intro g' hg' j a x y ha hx hy
      rw [hg] at hg'; simp only [Option.some.injEq] at hg'; subst hg'
      rw [e1] at hy
      obtain ⟨u, v, w, hu, hv, hw, rfl⟩ := rpropCoords_get _ _ _ _ _ _ _ _ hx hy
      rw [List.getElem?_map, ha] at hv
      simp only [Option.map_some, Option.some.injEq] at hv
      subst hv
      obtain ⟨r, rfl, hr⟩ := hp x (List.mem_of_getElem? hx)
      obtain ⟨r', hr', hup, -⟩ := rpropCoord_uphill bounded u a (hd w (List.mem_of_getElem? hw)) hr
      rw [hr']; exact hup
  · refine ⟨⟨by simp [rpropInit], by simp [rpropInit], by simp [rpropInit, length_clampIf]⟩, ?_, ?_, by simp [rpropInit]⟩
    · intro d hd
      simp only [rpropInit, List.mem_map] at hd
      obtain ⟨_, _, rfl⟩ := hd
      exact goodDelta_init
    · intro x hx
      cases bounded with
      | false =>
        obtain ⟨r, hr⟩ := hinit x (by simpa [rpropInit, clampIf] using hx)
        exact ⟨r, hr, by simp⟩
      | true =>
        simp only [rpropInit, clampIf, if_true, List.mem_map] at hx
        obtain ⟨y, hy, rfl⟩ := hx
        obtain ⟨r, rfl⟩ := hinit y hy
        rw [clampCoord_fin_eq]
        exact ⟨_, rfl, fun _ => ⟨le_max_left _ _, max_le (by norm_num) (min_le_right _ _)⟩⟩

/-- No undefined behaviour: if the objective provides gradients of the right size (and `eps_stop >= 0`), Rprop returns. -/
theorem C15_rprop_defined [ScalarFn α] (f : ObjFn α) (hf : HasGradient f) (init : List α) (bounded : Bool)
    (iterations : Int) (epsStop : α) (he : le (lit 0) epsStop = true) :
    ∃ s, rpropRun f init bounded iterations epsStop = some s := by
  unfold rpropRun
  rw [if_pos he]
  generalize rpropInit init bounded = s
  generalize iterations.toNat = n
  induction n generalizing s with
  | zero => exact ⟨s, rfl⟩
  | succ n ih =>
    rw [rpropLoop]
    obtain ⟨g, hg, hl⟩ := hf s.params
    have : ∃ s' st, rpropStep f bounded epsStop s = some (s', st) := by
      unfold rpropStep; simp only [hg, hl, if_true]; exact ⟨_, _, rfl⟩
    obtain ⟨s', st, hst⟩ := this
    rw [hst]
    cases st with
    | true => exact ⟨s', rfl⟩
    | false => exact ih s'

/-- Non-vacuity: a 2-D run of three iterations in binary64 from an out-of-box start, with a NaN gradient component, terminates
normally, visits three points and satisfies every premise above. -/
example :
    (rpropRun (fun x _ => (x.head?.getD (lit 0), some [lit 1, (lit 0 : F64) / lit 0])) [lit (-3), lit (1/2)] true 3 (lit 0)).map
      (fun s => decide (s.trace.length = 3)) = some true ∧ lt (negInf : F64) (lit 0) = true := by decide +kernel

/-! ## C16 Gradient ascent -/

/-- In bounded mode every queried point and the result have coordinates in `[0,1]` (or NaN). -/
theorem C16_gradient_ascent_in_bounds [ScalarFn α] [LawfulArith α] (P : GaParams α) (f : ObjFn α) (init : List α)
    (s : GaState α) (h : gaRun P f init true = some s) :
    (∀ q ∈ s.trace, InUnitBoxOrNaN init.length q) ∧ InUnitBoxOrNaN init.length s.params := by
  unfold gaRun at h
  split_ifs at h
  have hI := gaLoop_inv (GaInv init.length) (fun s s' st hs h => gaStep_inv hs h) _ _ _ ?_ h
  · exact ⟨hI.trace, hI.params⟩
  · exact ⟨by simp [gaInit], clampIf_box_or_nan init, by simp [gaInit]⟩

/-- Evaluation budget. -/
theorem C16_gradient_ascent_budget [ScalarFn α] (P : GaParams α) (f : ObjFn α) (init : List α) (bounded : Bool)
    (s : GaState α) (h : gaRun P f init bounded = some s) :
    s.trace.length ≤ P.iterations.toNat ∧
    ((∀ v : List α, lt (ScalarFn.norm v) P.epsStop = false) → s.trace.length = P.iterations.toNat) := by
  unfold gaRun at h
  split_ifs at h
  simpa [gaInit] using gaLoop_trace_len _ _ _ h

/-- The dimension never changes, bounded or not. -/
theorem C16_gradient_ascent_dimension [ScalarFn α] (P : GaParams α) (f : ObjFn α) (init : List α) (bounded : Bool)
    (s : GaState α) (h : gaRun P f init bounded = some s) :
    s.params.length = init.length ∧ ∀ q ∈ s.trace, q.length = init.length := by
  unfold gaRun at h
  split_ifs at h
  have hI := gaLoop_inv (P := P) (f := f) (b := bounded)
    (fun s => s.v.length = init.length ∧ s.params.length = init.length ∧ ∀ q ∈ s.trace, q.length = init.length)
    ?_ _ _ _ ?_ h
  · exact hI.2
  · rintro s s' st ⟨h1, h2, h3⟩ hstep
    obtain ⟨g, -, hl, hv, hp, ht, -⟩ := gaStep_eq hstep
    have hv' : s'.v.length = init.length := by rw [hv]; simp [h1, hl, h2]
    refine ⟨hv', by rw [hp, length_clampIf]; simp [h2, hv'], ?_⟩
    rw [ht]; intro q hq
    rcases List.mem_append.1 hq with hq | hq
    · exact h3 q hq
    · simp only [List.mem_singleton] at hq; subst hq
      unfold gaQuery; split_ifs
      · rw [length_clampIf]; simp [h1, h2]
      · exact h2
  · exact ⟨by simp [gaInit], by simp [gaInit, length_clampIf], by simp [gaInit]⟩

/-- Non-vacuity (binary64, Nesterov momentum, two iterations). -/
example :
    (gaRun ⟨2, lit (1/2), lit (9/10), true, (lit 0 : F64)⟩ (fun _ _ => (lit 0, some [lit 7, lit (-3)])) [lit (1/2), lit 4] true).map
      (fun s => decide (s.trace.length = 2)) = some true := by decide +kernel

/-! ## C17 Adam -/

/-- In bounded mode every queried point and the result have coordinates in `[0,1]` (or NaN). -/
theorem C17_adam_in_bounds [ScalarFn α] [LawfulArith α] (P : AdamParams α) (f : ObjFn α) (init : List α)
    (s : AdamState α) (h : adamRun P f init true = some s) :
    (∀ q ∈ s.trace, InUnitBoxOrNaN init.length q) ∧ InUnitBoxOrNaN init.length s.params := by
  unfold adamRun at h
  split_ifs at h
  have hI := adamLoop_inv (AdamInv init.length) (fun s s' st hs h => adamStep_inv hs h) _ _ _ ?_ h
  · exact ⟨hI.trace, hI.params⟩
  · exact ⟨by simp [adamInit], by simp [adamInit], clampIf_box_or_nan init, by simp [adamInit]⟩

/-- Evaluation budget. -/
theorem C17_adam_budget [ScalarFn α] (P : AdamParams α) (f : ObjFn α) (init : List α) (bounded : Bool)
    (s : AdamState α) (h : adamRun P f init bounded = some s) :
    s.trace.length ≤ P.iterations.toNat ∧
    ((∀ v : List α, lt (ScalarFn.norm v) P.epsStop = false) → s.trace.length = P.iterations.toNat) := by
  unfold adamRun at h
  split_ifs at h
  simpa [adamInit] using adamLoop_trace_len _ _ _ h

/-- Exact reals with IEEE special values: with real parameters passing the assertions, a real starting point and
real gradients, every visited point and the result are real - no division by zero and no square root of a negative number
ever happens (they would produce an infinity or a NaN). -/
theorem C17_adam_operands_admissible (P : AdamParams XR) (a b1 b2 : ℝ) (ha : P.alpha = XR.fin a)
    (h1 : P.b1 = XR.fin b1) (h2 : P.b2 = XR.fin b2) (f : ObjFn XR)
    (hf : ∀ x g, AllFin x → (f x true).2 = some g → AllFin g) (init : List XR) (hinit : AllFin init) (bounded : Bool)
    (s : AdamState XR) (h : adamRun P f init bounded = some s) :
    (∀ q ∈ s.trace, AllFin q) ∧ AllFin s.params := by
  unfold adamRun at h
  split_ifs at h with hc
  simp only [Bool.and_eq_true] at hc
  obtain ⟨⟨⟨⟨c1, c2⟩, c3⟩, c4⟩, -⟩ := hc
  rw [h1, XR.lit_eq] at c1 c2
  rw [h2, XR.lit_eq] at c3 c4
  rw [XR.le_fin] at c1 c3
  rw [XR.lt_fin] at c2 c4
  push_cast at c1 c2 c3 c4
  have hI := adamLoop_inv (AdamFin b1 b2)
    (fun s s' st hs h => adamStep_fin ha h1 h2 ⟨c1, c2⟩ ⟨c3, c4⟩ hf hs h) _ _ _ ?_ h
  · exact ⟨hI.trace, hI.params⟩
  · refine ⟨?_, ?_, ⟨b1, c1, c2, h1⟩, ⟨b2, c3, c4, h2⟩, AllFin_clampIf hinit, by simp [adamInit]⟩
    · intro x hx
      simp only [adamInit, List.mem_map] at hx
      obtain ⟨_, _, rfl⟩ := hx
      exact ⟨_, rfl⟩
    · intro x hx
      simp only [adamInit, List.mem_map] at hx
      obtain ⟨_, _, rfl⟩ := hx
      exact ⟨_, by push_cast; exact le_refl _, rfl⟩

/-- Non-vacuity: default parameters in exact arithmetic pass the assertions, and a run is defined. -/
example : ∃ s : AdamState XR,
    adamRun ⟨3, lit (1/1000), lit (9/10), lit (999/1000), lit 0⟩ (fun x _ => (lit 0, some x)) [XR.fin 1, XR.fin (1/2)] true = some s ∧
    AllFin [XR.fin 1, XR.fin (1/2)] := by
  have hrun : ∀ (P : AdamParams XR) (n : Nat) (s : AdamState XR),
      ∃ s', adamLoop P (fun x _ => (lit 0, some x)) true n s = some s' := by
    intro P n
    induction n with
    | zero => intro s; exact ⟨s, rfl⟩
    | succ n ih =>
      intro s
      rw [adamLoop]
      have : ∃ s' st, adamStep P (fun x _ => (lit 0, some x)) true s = some (s', st) := by
        unfold adamStep; simp only [if_true]; exact ⟨_, _, rfl⟩
      obtain ⟨s', st, hst⟩ := this
      rw [hst]
      cases st with
      | true => exact ⟨s', rfl⟩
      | false => exact ih s'
  obtain ⟨s', hs'⟩ := hrun ⟨3, lit (1/1000), lit (9/10), lit (999/1000), lit 0⟩ 3
    (adamInit ⟨3, lit (1/1000), lit (9/10), lit (999/1000), lit 0⟩ [XR.fin 1, XR.fin (1/2)] true)
  refine ⟨s', ?_, by intro x hx; simp at hx; rcases hx with rfl | rfl <;> exact ⟨_, rfl⟩⟩
  unfold adamRun
  rw [if_pos]
  · exact hs'
  · simp only [Bool.and_eq_true, XR.lit_eq, XR.le_fin, XR.lt_fin]; norm_num

end Limbo
