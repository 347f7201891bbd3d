import Verif.Lemmas.Grid
import Verif.Lemmas.F64Laws
import Verif.Spec.Opt
import Verif.Props.Par

/-!
# C18, C19 GridSearch; C20 ParallelRepeater; C21 Chained and RandomPoint
-/

namespace Limbo

variable {α : Type}
open LawfulCmp

/-! ## C18 GridSearch finds the maximum over its grid -/

/-- Any arithmetic: whatever values `axis` the loop `x = 0; x < 1 + 1/bins; x += 1/bins` visits, the result is a point of
`axis^d` that no point of `axis^d` beats - provided every line parallel to the last axis contains a value above `-DBL_MAX`. -/
theorem C18_grid_search_optimum_any_arithmetic [Scalar α] [LawfulArith α] (f : ObjFn α) (bins fuel : Nat) (axis : List α)
    (haxis : gridSearchAxis bins fuel = some axis) (hne : axis ≠ []) (init : List α) (hd : 0 < init.length)
    (hval : ∀ p, OnGrid axis (init.length - 1) p → ∃ x ∈ axis, lt negDblMax (f (p ++ [x]) false).1 = true) :
    ∃ r, gridSearch bins fuel f init true = some r ∧ OnGrid axis init.length r ∧ isNaN (f r false).1 = false ∧
      ∀ q, OnGrid axis init.length q → lt (f r false).1 (f q false).1 = false := by
  obtain ⟨t, tr, h1, h2, h3, h4⟩ := gsInner_spec f axis hne (init.map fun _ => lit (1/2)) init.length []
    (by intro h; rw [List.map_eq_nil_iff] at h; simp [h] at hd) (by simp) (by simpa [evalNoGrad] using hval)
  simp only [List.nil_append, List.length_nil, List.length_map] at h1 h2 h3 h4
  refine ⟨t, ?_, h2, (not_nan_of_lt h3).2, h4⟩
  simp only [gridSearch, gridSearchRun, haxis, h1, if_true]

/-- Exact arithmetic: the result is a global maximum over `{0, 1/b, ..., 1}^d`. -/
theorem C18_grid_search_optimum (f : ObjFn XR) (b fuel : Nat) (hb : 0 < b) (hfuel : b + 2 ≤ fuel) (init : List XR)
    (hd : 0 < init.length)
    (hval : ∀ p, OnGrid (regularAxis b) (init.length - 1) p →
      ∃ x ∈ regularAxis b, lt negDblMax (f (p ++ [x]) false).1 = true) :
    ∃ r, gridSearch b fuel f init true = some r ∧ OnGrid (regularAxis b) init.length r ∧
      ∀ q, OnGrid (regularAxis b) init.length q → lt (f r false).1 (f q false).1 = false := by
  obtain ⟨r, h1, h2, -, h3⟩ := C18_grid_search_optimum_any_arithmetic f b fuel _ (gridSearchAxis_exact b fuel hb hfuel)
    (regularAxis_ne_nil b) init hd hval
  exact ⟨r, h1, h2, h3⟩

/-- Exact arithmetic, ordinary objective: real-valued and above `-DBL_MAX` everywhere; the maximum is a maximum of reals. -/
theorem C18_grid_search_optimum_real (g : List XR → ℝ) (hg : ∀ p, -((2 ^ 53 - 1) * 2 ^ 971) < g p) (b fuel : Nat) (hb : 0 < b)
    (hfuel : b + 2 ≤ fuel) (init : List XR) (hd : 0 < init.length) :
    ∃ r, gridSearch b fuel (fun p _ => (XR.fin (g p), none)) init true = some r ∧ OnGrid (regularAxis b) init.length r ∧
      ∀ q, OnGrid (regularAxis b) init.length q → g q ≤ g r := by
  obtain ⟨r, h1, h2, h3⟩ := C18_grid_search_optimum (fun p _ => (XR.fin (g p), none)) b fuel hb hfuel init hd (by
    intro p _
    obtain ⟨x, hx⟩ := List.exists_mem_of_ne_nil _ (regularAxis_ne_nil b)
    refine ⟨x, hx, ?_⟩
    unfold negDblMax
    rw [XR.lit_eq, XR.lt_fin]
    have := hg (p ++ [x])
    push_cast
    linarith)
  refine ⟨r, h1, h2, fun q hq => ?_⟩
  have := h3 q hq
  simp only [XR.lt_fin', decide_eq_false_iff_not, not_lt] at this
  exact this

/-- The precondition is exact: if on some line parallel to the last axis no value exceeds `-DBL_MAX` (for instance NaN),
an uninitialised vector is returned or evaluated (modelled as `none`). -/
theorem C18_grid_search_uninitialised [Scalar α] [LawfulArith α] (f : ObjFn α) (bins fuel : Nat) (axis : List α)
    (haxis : gridSearchAxis bins fuel = some axis) (init : List α) (hd : 0 < init.length)
    (p : List α) (hp : OnGrid axis (init.length - 1) p)
    (hbad : ∀ x ∈ axis, lt negDblMax (f (p ++ [x]) false).1 = false) :
    gridSearch bins fuel f init true = none := by
  have h := gsInner_bad f axis (init.map fun _ => lit (1/2)) init.length [] p
    (by intro h; rw [List.map_eq_nil_iff] at h; simp [h] at hd) (by simpa using hp) (by simpa [evalNoGrad] using hbad)
  simp only [List.nil_append, List.length_nil] at h
  simp only [gridSearch, gridSearchRun, haxis, if_true]
  split
  · rename_i r tr heq
    cases r with
    | none => rfl
    | some q => exact absurd heq (h q tr)
  · rfl

-- hypotheses met: the exact axis for bins = 3 in dimension 2, objective -x^2-y^2... (any real function above -DBL_MAX)
example : ∃ r, gridSearch 3 5 (fun _ _ => (XR.fin 1, none)) [XR.fin 0, XR.fin 0] true = some r ∧ OnGrid (regularAxis 3) 2 r := by
  obtain ⟨r, h1, h2, -⟩ := C18_grid_search_optimum_real (fun _ => 1) (by
      intro _
      have : (0 : ℝ) < (2 ^ 53 - 1) * 2 ^ 971 := mul_pos (by norm_num) (by positivity)
      exact _root_.lt_trans (neg_lt_zero.2 this) one_pos) 3 5 (by norm_num) (by norm_num)
    [XR.fin 0, XR.fin 0] (by simp)
  exact ⟨r, h1, h2⟩
-- binary64, bins = 4, two dimensions: maximum of x - y is at (1, 0)
example : gridSearch 4 20 (fun p _ => ((p.getD 0 F64.nan) - (p.getD 1 F64.nan), none)) [F64.of (1/2), F64.of (1/2)] true =
    some [F64.of 1, F64.of 0] := by decide +kernel
-- NaN objective: uninitialised result
example : gridSearch 4 20 (fun _ _ => (F64.nan, none)) [F64.of (1/2)] true = none := by decide +kernel

/-! ## C19 GridSearch and the bounds -/

/-- Exact arithmetic: every queried point and the returned point are in `[0,1]^d`. -/
theorem C19_grid_search_in_bounds_exact (f : ObjFn XR) (b fuel : Nat) (hb : 0 < b) (hfuel : b + 2 ≤ fuel) (init : List XR)
    (r : Option (List XR)) (tr : List (List XR)) (h : gridSearchRun b fuel f init true = some (r, tr)) :
    (∀ q ∈ tr, InUnitBox init.length q) ∧ ∀ q, r = some q → InUnitBox init.length q := by
  simp only [gridSearchRun, gridSearchAxis_exact b fuel hb hfuel, if_true] at h
  obtain ⟨h1, h2⟩ := gsInner_trace f (regularAxis b) (init.map fun _ => lit (1/2)) init.length [] r tr (by simpa using h)
  have key : ∀ q, (∃ t, q = [] ++ t ∧ OnGrid (regularAxis b) (init.map fun _ => (lit (1/2) : XR)).length t) →
      InUnitBox init.length q := by
    rintro q ⟨t, rfl, ht1, ht2⟩
    refine ⟨by simpa using ht1, ?_⟩
    intro x hx
    obtain ⟨k, hk, rfl⟩ := (regularAxis_mem b x).1 (ht2 x (by simpa using hx))
    have hb' : (0 : ℝ) < b := by exact_mod_cast hb
    have hk' : (k : ℝ) ≤ b := by exact_mod_cast hk
    rw [XR.lit_eq, XR.lit_eq, XR.le_fin, XR.le_fin]
    push_cast
    exact ⟨by positivity, (div_le_one hb').2 hk'⟩
  exact ⟨fun q hq => key q (h1 q hq), fun q hq => key q (h2 q hq)⟩

/-- binary64: FALSE.  With `bins = 10` and the objective `f(x) = x`, GridSearch returns a point with coordinate
1.0999999999999999 > 1 (and hence has evaluated the objective there). -/
theorem C19_grid_search_leaves_bounds_binary64 :
    ∃ x : F64, gridSearch 10 20 (fun p _ => (p.getD 0 F64.nan, none)) [F64.of (1/2)] true = some [x] ∧ lt (lit 1) x = true ∧
      ¬ InUnitBox 1 [x] := by
  have e : gridSearch 10 20 (fun p _ => (p.getD 0 F64.nan, none)) [F64.of (1/2)] true =
      some [F64.of (4953959590107545 / 4503599627370496)] := by decide +kernel
  have hlt : lt (lit 1) (F64.of (4953959590107545 / 4503599627370496)) = true := by decide +kernel
  refine ⟨_, e, hlt, ?_⟩
  rintro ⟨-, h⟩
  have := (h _ (List.mem_singleton.2 rfl)).2
  have h2 := lt_of_lt_of_le hlt this
  rw [lt_irrefl'] at h2; simp at h2

/-- What remains true in any arithmetic: every coordinate of every queried or returned point is below `1 + 1/bins`. -/
theorem C19_grid_search_in_bounds_partial [Scalar α] (f : ObjFn α) (bins fuel : Nat) (init : List α)
    (r : Option (List α)) (tr : List (List α)) (h : gridSearchRun bins fuel f init true = some (r, tr)) :
    (∀ q ∈ tr, q.length = init.length ∧ ∀ x ∈ q, lt x (lit 1 + lit 1 / lit bins) = true) ∧
    ∀ q, r = some q → q.length = init.length ∧ ∀ x ∈ q, lt x (lit 1 + lit 1 / lit bins) = true := by
  simp only [gridSearchRun, if_true] at h
  split at h
  · simp at h
  rename_i axis hax
  obtain ⟨h1, h2⟩ := gsInner_trace f axis (init.map fun _ => lit (1/2)) init.length [] r tr (by simpa using h)
  have hsweep : ∀ (fuel : Nat) (step upper x : α) (l : List α), ltSweep step upper fuel x = some l → ∀ y ∈ l, lt y upper = true := by
    intro fuel
    induction fuel with
    | zero => intro step upper x l h; simp [ltSweep] at h
    | succ fuel ih =>
      intro step upper x l h
      simp only [ltSweep] at h
      split_ifs at h with hc
      · rw [Option.map_eq_some_iff] at h
        obtain ⟨l', hl', rfl⟩ := h
        intro y hy
        rcases List.mem_cons.1 hy with rfl | hy
        · exact hc
        · exact ih _ _ _ _ hl' y hy
      · simp only [Option.some.injEq] at h; subst h; simp
  have key : ∀ q, (∃ t, q = [] ++ t ∧ OnGrid axis (init.map fun _ => (lit (1/2) : α)).length t) →
      q.length = init.length ∧ ∀ x ∈ q, lt x (lit 1 + lit 1 / lit bins) = true := by
    rintro q ⟨t, rfl, ht1, ht2⟩
    refine ⟨by simpa using ht1, fun x hx => hsweep _ _ _ _ _ hax x (ht2 x (by simpa using hx))⟩
  exact ⟨fun q hq => key q (h1 q hq), fun q hq => key q (h2 q hq)⟩

-- hypotheses met: a 2-dimensional run in binary64 terminates with 6^2 + 6 evaluations
example : (gridSearchRun 5 20 (fun p _ => (p.getD 0 F64.nan, none)) [F64.of 0, F64.of 0] true).map (fun r => r.2.length) =
    some 42 := by decide +kernel

/-! ## C20 ParallelRepeater -/

/-- For every schedule, with `v i` the point found by replicate `i`: if some replicate's value exceeds `-FLT_MAX`, the
returned point is one of the replicates' points and no replicate's value beats it; otherwise the caller's starting point is
returned. -/
theorem C20_parallel_repeater_best [Scalar α] [LawfulArith α] (repeats : Int) (epsilon : α) (opt : Optz α)
    (uniform : Nat → Nat → α) (s : Sched) (f : ObjFn α) (init : List α) (bounded : Bool) (r : List α)
    (h : parallelRepeater repeats epsilon opt uniform s f init bounded = some r) :
    ∃ v : Nat → List α, (∀ i : Nat, (i : Int) < repeats → opt f (repeaterStart epsilon init (uniform i)) bounded = some (v i)) ∧
      ((∃ i : Nat, (i : Int) < repeats ∧ r = v i ∧ lt negFltMax (f r false).1 = true ∧
          ∀ j : Nat, (j : Int) < repeats → lt (f r false).1 (f (v j) false).1 = false) ∨
       (r = init ∧ ∀ j : Nat, (j : Int) < repeats → lt negFltMax (f (v j) false).1 = false)) := by
  unfold parallelRepeater at h
  split_ifs at h with hg
  simp only [Bool.or_eq_true, decide_eq_true_eq, Bool.not_eq_true', not_or, not_le, Bool.not_eq_false, ne_eq, not_not] at hg
  obtain ⟨⟨hpos, -⟩, hsz⟩ := hg
  simp only at h
  split at h
  · simp at h
  rename_i rs hrs
  simp only [Option.some.injEq] at h
  obtain ⟨hlen, hget⟩ := allDefined_eq _ _ _ hrs
  simp only [List.length_range] at hlen
  have hrep : ∀ i : Nat, ∃ v, (i : Int) < repeats → opt f (repeaterStart epsilon init (uniform i)) bounded = some v ∧
      rs.getD i (init, negFltMax) = (v, evalNoGrad f v) := by
    intro i
    by_cases hi : (i : Int) < repeats
    · have hir : (List.range repeats.toNat)[i]? = some i := by
        rw [List.getElem?_range (by omega)]
      have h1 := hget i i hir
      have h2 : i < rs.length := by omega
      rw [List.getElem?_eq_getElem h2, Option.map_eq_some_iff] at h1
      obtain ⟨v, hv, e⟩ := h1
      exact ⟨v, fun _ => ⟨hv, by rw [List.getD_eq_getElem?_getD, List.getElem?_eq_getElem h2, ← e]; rfl⟩⟩
    · exact ⟨[], fun h => absurd h hi⟩
  choose v hv using hrep
  have hf := fun i hi => (hv i hi).2
  refine ⟨v, fun i hi => (hv i hi).1, ?_⟩
  have hnn : isNaN (negFltMax : α) = false := by
    have h := LawfulArith.lit_mono (α := α) (-((2 ^ 24 - 1) * 2 ^ 104)) 0 (by norm_num)
    exact (not_nan_of_le h).1
  obtain ⟨m1, m2, m3, m4⟩ := C24_par_max_with_nan (fun p : List α × α => p.2) (init, negFltMax) hnn
    (fun i => rs.getD i (init, negFltMax)) repeats.toNat s hsz _ rfl
  rw [← h]
  have hle : ∀ j : Nat, (j : Int) < repeats → lt (parMax (init, negFltMax) (fun i => rs.getD i (init, negFltMax))
      (fun v1 v2 : List α × α => lt v2.2 v1.2) s).2 (evalNoGrad f (v j)) = false := by
    intro j hj
    have := m4 j (by omega)
    rw [hf j hj] at this
    exact this
  by_cases hall : ∀ j : Nat, (j : Int) < repeats → lt negFltMax (evalNoGrad f (v j)) = false
  · refine Or.inr ⟨?_, hall⟩
    -- nothing beats init: then no replicate is ever selected
    have hstay : ∀ (s : Sched) (st : Nat), st + s.size ≤ repeats.toNat →
        parMaxFrom (init, negFltMax) (fun i => rs.getD i (init, negFltMax)) (fun v1 v2 : List α × α => lt v2.2 v1.2) s st
          (init, negFltMax) = (init, negFltMax) := by
      intro s
      induction s with
      | chunk n =>
        intro st hst
        simp only [parMaxFrom, Sched.size] at hst ⊢
        induction n generalizing st with
        | zero => rfl
        | succ n ih =>
          have hj : ((st : Nat) : Int) < repeats := by omega
          simp only [maxChunk, hf st hj, hall st hj]
          exact ih (st + 1) (by omega)
      | seq a b iha ihb =>
        intro st hst
        simp only [Sched.size] at hst
        simp only [parMaxFrom]
        rw [iha st (by omega), ihb (st + a.size) (by omega)]
      | fork a b iha ihb =>
        intro st hst
        simp only [Sched.size] at hst
        simp only [parMaxFrom]
        rw [iha st (by omega), ihb (st + a.size) (by omega)]
        simp [maxJoin]
    unfold parMax
    rw [hstay s 0 (by omega)]
  · push Not at hall
    obtain ⟨j, hj, hb⟩ := hall
    left
    rcases m1 with m1 | ⟨i, hi, m1⟩
    · exfalso
      have := hle j hj
      rw [m1] at this
      exact hb this
    · have hi' : (i : Int) < repeats := by omega
      rw [hf i hi'] at m1
      rw [m1] at m2 hle ⊢
      refine ⟨i, hi', rfl, ?_, hle⟩
      have hjt : lt negFltMax (evalNoGrad f (v j)) = true := by simpa using hb
      exact lt_of_lt_of_le hjt (le_of_not_lt m2 (not_nan_of_lt hjt).2 (hle j hj))

/-- The returned value does not depend on the schedule (some replicate above `-FLT_MAX`). -/
theorem C20_parallel_repeater_schedule_independent [Scalar α] [LawfulArith α] (repeats : Int) (epsilon : α) (opt : Optz α)
    (uniform : Nat → Nat → α) (s s' : Sched) (f : ObjFn α) (init : List α) (bounded : Bool) (r r' : List α)
    (h : parallelRepeater repeats epsilon opt uniform s f init bounded = some r)
    (h' : parallelRepeater repeats epsilon opt uniform s' f init bounded = some r') :
    r = r' ∨ (le (f r false).1 (f r' false).1 = true ∧ le (f r' false).1 (f r false).1 = true) := by
  obtain ⟨v, hv, c⟩ := C20_parallel_repeater_best repeats epsilon opt uniform s f init bounded r h
  obtain ⟨v', hv', c'⟩ := C20_parallel_repeater_best repeats epsilon opt uniform s' f init bounded r' h'
  have hvv : ∀ i : Nat, (i : Int) < repeats → v i = v' i := by
    intro i hi
    have := (hv i hi).symm.trans (hv' i hi)
    simpa using this
  rcases c with ⟨i, hi, e, hl, hm⟩ | ⟨e, hm⟩
  · rcases c' with ⟨i', hi', e', hl', hm'⟩ | ⟨e', hm'⟩
    · right
      refine ⟨le_of_not_lt (not_nan_of_lt hl').2 (not_nan_of_lt hl).2 ?_, le_of_not_lt (not_nan_of_lt hl).2 (not_nan_of_lt hl').2 ?_⟩
      · have := hm' i hi; rw [← hvv i hi, ← e] at this; exact this
      · have := hm i' hi'; rw [hvv i' hi', ← e'] at this; exact this
    · have := hm' i hi; rw [← hvv i hi, ← e, hl] at this; simp at this
  · rcases c' with ⟨i', hi', e', hl', hm'⟩ | ⟨e', hm'⟩
    · have := hm i' hi'; rw [hvv i' hi', ← e', hl'] at this; simp at this
    · left; rw [e, e']

/-- Exact arithmetic: each replicate starts within `epsilon` of the caller's starting point in every coordinate
(so it may start slightly outside `[0,1]^d`). -/
theorem C20_parallel_repeater_starts_near (epsilon : ℝ) (init : List ℝ) (uniform : Nat → ℝ)
    (hu : ∀ i, 0 ≤ uniform i ∧ uniform i ≤ 1) (he : 0 < epsilon) :
    ∃ st : List ℝ, repeaterStart (XR.fin epsilon) (init.map XR.fin) (fun i => XR.fin (uniform i)) = st.map XR.fin ∧
      st.length = init.length ∧
      ∀ (j : Nat) (x y : ℝ), init[j]? = some x → st[j]? = some y → |y - x| ≤ epsilon := by
  refine ⟨List.zipWith (fun x r => x + (r * 2 * epsilon - epsilon)) init ((List.range init.length).map uniform), ?_, by simp, ?_⟩
  · have e : (lit 2 : XR) = XR.fin 2 := by rw [XR.lit_eq]; norm_num
    unfold repeaterStart randomVec
    rw [e]
    rw [List.length_map, List.map_zipWith, List.zipWith_map_left, List.zipWith_map_right, List.zipWith_map_right]
    simp only [XR.mul_fin, XR.sub_fin, XR.add_fin]
  · intro j x y hx hy
    simp only [List.getElem?_zipWith, hx, List.getElem?_map] at hy
    have hj : j < init.length := by
      by_contra hc; rw [List.getElem?_eq_none (by omega)] at hx; simp at hx
    rw [List.getElem?_range hj] at hy
    simp only [Option.map_some, Option.some.injEq] at hy
    obtain ⟨h0, h1⟩ := hu j
    rw [← hy, abs_le]
    constructor <;> nlinarith

-- hypotheses met: 3 replicates of a "return the start" optimizer on a binary64 objective with a NaN region, forked schedule
example : parallelRepeater 3 (F64.of (1/4)) (fun _ p _ => some p) (fun i _ => [F64.of 0, F64.of 1, F64.of (1/2)].getD i F64.nan)
    (.fork (.chunk 1) (.seq (.chunk 1) (.chunk 1)))
    (fun p _ => (if lt (p.getD 0 F64.nan) (F64.of (2/5)) then F64.nan else -(p.getD 0 F64.nan), none)) [F64.of (1/2)] true =
    some [F64.of (1/2)] := by decide +kernel

/-! ## C21 Chained and RandomPoint -/

/-- `Chained` is sequential composition. -/
theorem C21_chained_composition (o1 o2 : Optz α) (os : List (Optz α)) (f : ObjFn α) (init : List α) (bounded : Bool) :
    chained o1 [] f init bounded = o1 f init bounded ∧
    chained o1 (o2 :: os) f init bounded = (o1 f init bounded).bind (fun p => chained o2 os f p bounded) := by
  refine ⟨rfl, ?_⟩
  simp only [chained]
  cases o1 f init bounded <;> rfl

/-- Every property the last optimizer guarantees for its result whatever its starting point (e.g. bounds) holds of the result
of the chain. -/
theorem C21_chained_keeps_last_guarantee (P : List α → Prop) (f : ObjFn α) (bounded : Bool) (o : Optz α) (os : List (Optz α))
    (hlast : ∀ last, (o :: os).getLast? = some last → ∀ p q, last f p bounded = some q → P q)
    (init r : List α) (h : chained o os f init bounded = some r) : P r := by
  induction os generalizing o init with
  | nil => exact hlast o (by simp) init r h
  | cons o2 os ih =>
    simp only [chained] at h
    split at h
    · simp at h
    · rename_i p _
      exact ih o2 (fun last hl => hlast last (by simpa using hl)) p h

/-- If no stage worsens the objective, the chain does not. -/
theorem C21_chained_never_worse [Scalar α] [LawfulCmp α] (f : ObjFn α) (bounded : Bool) (os : List (Optz α)) (o : Optz α)
    (hst : ∀ s ∈ o :: os, ∀ p q, s f p bounded = some q → le (f p false).1 (f q false).1 = true)
    (init r : List α) (h : chained o os f init bounded = some r) : le (f init false).1 (f r false).1 = true := by
  induction os generalizing o init with
  | nil => exact hst o (by simp) init r h
  | cons o2 os ih =>
    simp only [chained] at h
    split at h
    · simp at h
    · rename_i p hp
      exact le_trans _ _ _ (hst o (by simp) init p hp) (ih o2 (fun s hs => hst s (by simp [hs])) p h)

/-- `RandomPoint` in bounded mode returns a point of the right dimension in `[0,1]^d` (the generator draws from `[0,1]`),
and its result does not depend on the objective (which it never calls). -/
theorem C21_random_point [Scalar α] (uniform : Nat → α)
    (hu : ∀ i, le (lit 0) (uniform i) = true ∧ le (uniform i) (lit 1) = true) (f g : ObjFn α) (init : List α) :
    ∃ r, randomPoint uniform f init true = some r ∧ InUnitBox init.length r ∧ randomPoint uniform g init true = some r := by
  refine ⟨randomVec uniform init.length, rfl, ⟨by simp [randomVec], ?_⟩, rfl⟩
  intro x hx
  simp only [randomVec, List.mem_map] at hx
  obtain ⟨i, -, rfl⟩ := hx
  exact hu i

-- hypotheses met: a two-stage chain on naturals-like lists
example : chained (fun _ p _ => some (p ++ [F64.of 1])) [fun _ p _ => some (p ++ [F64.of 0])]
    (fun _ _ => (F64.of 0, none)) [F64.of 1] true = some [F64.of 1, F64.of 1, F64.of 0] := by decide +kernel
example : ∀ i : Nat, le (lit 0) (F64.of (1/2)) = true ∧ le (F64.of (1/2)) (lit 1) = true := by intro _; decide +kernel

end Limbo
