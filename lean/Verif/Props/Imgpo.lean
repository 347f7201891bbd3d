import Verif.Lemmas.Imgpo5
import Verif.Lemmas.Grid
import Verif.Basic.Xt

/-! C62 and C71: the cells, the evaluated points and the data of IMGPO. -/

namespace Limbo

variable {M : Type}

private theorem post_true {P : ImParams XR M} {f : StateFun XR M} {afun : List XR → XR} {reset : Bool} {fuel N : Nat} {st : ImState XR M}
    (hd : 0 < f.dimIn) (hlen : st.base.samples.length = st.base.observations.length)
    (hdat : reset = false → st.base.totalIterations = 0 → DataInv st.base)
    (hN1 : (reset = true ∨ st.base.totalIterations = 0) → N = 1000)
    (htree : ¬ (reset = true ∨ st.base.totalIterations = 0) → N = st.tree.length ∧ 0 < N ∧ ∀ h L, st.tree[h]? = some L → LevOk f.dimIn h L) :
    (imOptimize P f afun reset fuel st).Post True True (ImDone P f afun (reset = true ∨ st.base.totalIterations = 0) N st)
      (fun st' => (reset = true ∨ st.base.totalIterations = 0) → DataInv st'.base) :=
  imOptimize_post hd ⟨fun _ _ _ _ _ _ => trivial, fun _ _ _ _ _ _ => trivial⟩ (fun _ _ _ => trivial) (fun _ _ => trivial) (fun _ _ _ => trivial)
    (fun _ _ => trivial) hlen hdat hN1 htree (Or.inl trivial)

/-- **C62**: after `optimize(f, afun, true)` the leaves tile `[0,1]^d`: they cover it and no two overlap; every level's arrays have the same
size, and every cell of depth `h` is a box inside `[0,1]^d` with sides `3^{-n 0}, ..., 3^{-n (d-1)}`, `n 0 + ... + n (d-1) = h`, the
exponents differing by at most one, and its stored point is its centre.  Whatever model, acquisition function, objective, aggregator, stopping criteria, and whatever
was done with the object before. -/
theorem C62_tiling (P : ImParams XR M) (f : StateFun XR M) (afun : List XR → XR) (fuel : Nat) (st st' : ImState XR M) (hd : 0 < f.dimIn)
    (hlen : st.base.samples.length = st.base.observations.length) (h : imOptimize P f afun true fuel st = .ok st') :
    Tiles f.dimIn st'.tree ∧ ∀ h L, st'.tree[h]? = some L → LevOk f.dimIn h L := by
  have := post_true (P := P) (f := f) (afun := afun) (reset := true) (fuel := fuel) (N := 1000) (st := st) hd hlen (by simp) (by simp) (by simp)
  rw [h] at this
  exact ⟨this.tiles (Or.inl rfl), this.lev⟩

/-- **C62**: with `reset = false` on an object that has not completed an iteration (for example a new object, possibly with data added by the user) the same holds. -/
theorem C62_tiling_first (P : ImParams XR M) (f : StateFun XR M) (afun : List XR → XR) (reset : Bool) (fuel : Nat) (st st' : ImState XR M)
    (hd : 0 < f.dimIn) (hdat : DataInv st.base) (h0 : st.base.totalIterations = 0) (h : imOptimize P f afun reset fuel st = .ok st') :
    Tiles f.dimIn st'.tree ∧ ∀ h L, st'.tree[h]? = some L → LevOk f.dimIn h L := by
  have := post_true (P := P) (f := f) (afun := afun) (reset := reset) (fuel := fuel) (N := 1000) (st := st) hd hdat.len (fun _ _ => hdat) (by simp)
    (by simp [h0])
  rw [h] at this
  exact ⟨this.tiles (Or.inr h0), this.lev⟩

/-- **C62**: a run resumed with `reset = false` after a run that returned keeps every cell a correct one (though not the tiling, see
`C62_resumed_overlaps`). -/
theorem C62_resumed_cells (P : ImParams XR M) (f : StateFun XR M) (afun : List XR → XR) (fuel : Nat) (st st' : ImState XR M) (hd : 0 < f.dimIn)
    (hlen : st.base.samples.length = st.base.observations.length) (hcont : st.base.totalIterations ≠ 0) (ht : 0 < st.tree.length)
    (hlev : ∀ h L, st.tree[h]? = some L → LevOk f.dimIn h L) (h : imOptimize P f afun false fuel st = .ok st') :
    ∀ h L, st'.tree[h]? = some L → LevOk f.dimIn h L := by
  have := post_true (P := P) (f := f) (afun := afun) (reset := false) (fuel := fuel) (N := st.tree.length) (st := st) hd hlen
    (fun _ h0 => absurd h0 hcont) (by simp [hcont]) (fun _ => ⟨rfl, ht, hlev⟩)
  rw [h] at this
  exact this.lev

/-- **C62**: apart from the points of the initialiser, the objective is only called on points of `[0,1]^d`; `current_iteration` counts exactly these calls. -/
theorem C62_evaluated (P : ImParams XR M) (f : StateFun XR M) (afun : List XR → XR) (fuel : Nat) (st st' : ImState XR M) (hd : 0 < f.dimIn)
    (hlen : st.base.samples.length = st.base.observations.length) (h : imOptimize P f afun true fuel st = .ok st') :
    ∃ inits new : List (List XR), callPts st'.base.trace = callPts st.base.trace ++ inits ++ new ∧
      (∃ b, P.bo.initPts b f.dimIn = some inits) ∧ (∀ x ∈ new, ∃ p, UnitPoint f.dimIn p ∧ x = p.map XR.fin) ∧
      st'.base.currentIteration = new.length := by
  have := post_true (P := P) (f := f) (afun := afun) (reset := true) (fuel := fuel) (N := 1000) (st := st) hd hlen (by simp) (by simp) (by simp)
  rw [h] at this
  obtain ⟨inits, new, h1, h2, -, h4, h5⟩ := this.calls
  exact ⟨inits, new, h1, h2 (Or.inl rfl), h4, h5⟩

/-- **C62**: no undefined behaviour, if the input dimension is positive, `compute` on non-empty paired data and `optimize_hyperparams` are defined,
the objective never returns an empty vector, the criteria and the initialiser are defined, and fewer than 1000 passes are made. -/
theorem C62_defined (P : ImParams XR M) (f : StateFun XR M) (afun : List XR → XR) (fuel : Nat) (st : ImState XR M) (hd : 0 < f.dimIn)
    (hc : ∀ xs ys m, xs.length = ys.length → ys ≠ [] → P.bo.ops.compute xs ys m ≠ .ub) (hh : ∀ m, P.bo.ops.optHp m ≠ .ub)
    (hf : ∀ tr x, f.call tr x ≠ .ret []) (hs : ∀ b, boStop P.bo afun b ≠ none) (hi : ∀ b n, P.bo.initPts b n ≠ none)
    (hlen : st.base.samples.length = st.base.observations.length) (hfuel : fuel < 1000) : imOptimize P f afun true fuel st ≠ .ub := by
  have := imOptimize_post (U := False) (P := P) (f := f) (afun := afun) (reset := true) (fuel := fuel) (N := 1000) (st := st) hd
    ⟨fun xs ys m h1 h2 h3 => hc xs ys m h1 h2 h3, fun _ _ _ _ _ _ => trivial⟩ (fun tr x h => hf tr x h) (fun b h => hs b h)
    (fun b n h => hi b n h) (fun m h => hh m h) hlen (by simp) (by simp) (by simp) (Or.inr hfuel)
  intro h
  rw [h] at this
  exact this

/-- **C71**: with `MaxIterations(n)` as only criterion, a run that returns has called the objective at least `n` times besides the initialiser. -/
theorem C71_budget (P : ImParams XR M) (f : StateFun XR M) (afun : List XR → XR) (n : Int) (fuel : Nat) (st st' : ImState XR M) (hd : 0 < f.dimIn)
    (hstop : P.bo.stop = [maxIterations n]) (hlen : st.base.samples.length = st.base.observations.length)
    (h : imOptimize P f afun true fuel st = .ok st') :
    ∃ inits new : List (List XR), callPts st'.base.trace = callPts st.base.trace ++ inits ++ new ∧
      (∃ b, P.bo.initPts b f.dimIn = some inits) ∧ n ≤ (new.length : Int) := by
  have := post_true (P := P) (f := f) (afun := afun) (reset := true) (fuel := fuel) (N := 1000) (st := st) hd hlen (by simp) (by simp) (by simp)
  rw [h] at this
  obtain ⟨inits, new, h1, h2, -, -, h5⟩ := this.calls
  obtain ⟨b, b', hb, hcur⟩ := this.stop
  refine ⟨inits, new, h1, h2 (Or.inl rfl), ?_⟩
  rw [← h5, ← hcur]
  unfold boStop at hb
  rw [hstop] at hb
  simp only [chainCriteria, Bool.false_eq_true, if_false, maxIterations, Option.some.injEq, Prod.mk.injEq, decide_eq_true_eq] at hb
  rw [← hb.2]
  exact hb.1

/-- Every call of `optimize` in the history resets the object (the default of the last argument). -/
def AllReset : List (ImOp XR M) → Prop
  | [] => True
  | .optimize f _ reset _ :: os => reset = true ∧ 0 < f.dimIn ∧ AllReset os
  | _ :: os => AllReset os

private theorem op_data (P : ImParams XR M) (o : ImOp XR M) (ho : AllReset [o]) (st : ImState XR M) (h : DataInv st.base) :
    (imRunOp P o st).All (fun s => DataInv s.base) (fun s => DataInv s.base) := by
  cases o with
  | optimize f afun reset fuel =>
    obtain ⟨hr, hd, -⟩ := ho
    have := post_true (P := P) (f := f) (afun := afun) (reset := reset) (fuel := fuel) (N := 1000) (st := st) hd h.len (fun _ _ => h) (by simp)
      (by simp [hr])
    simp only [imRunOp]
    cases he : imOptimize P f afun reset fuel st with
    | ok s => rw [he] at this; exact this.data (Or.inl hr)
    | throw e s => rw [he] at this; exact this (Or.inl hr)
    | ub => trivial
    | diverge => trivial
  | addNewSample s v =>
    simp only [imRunOp, imBase]
    have := addNewSample_inv s v (st.base.push (.given s v)) h.len h.fin (by
      simp only [BoState.push]; rw [expect_append, ← h.zip]; rfl)
    cases he : addNewSample s v (st.base.push (.given s v)) with
    | ok b => rw [he] at this; exact this
    | throw e b => rw [he] at this; exact this
    | ub => trivial
    | diverge => trivial
  | evalAndAdd f x =>
    simp only [imRunOp, imBase]
    have := evalAndAdd_inv f x st.base h
    cases he : evalAndAdd f x st.base with
    | ok b => rw [he] at this; exact this
    | throw e b => rw [he] at this; exact this
    | ub => trivial
    | diverge => trivial

private theorem runOps_data (P : ImParams XR M) : ∀ (os : List (ImOp XR M)), AllReset os → ∀ st, DataInv st.base → ∀ st', imRunOps P os st = some st' →
    DataInv st'.base := by
  intro os
  induction os with
  | nil =>
    intro _ st h st' he
    simp only [imRunOps, Option.some.injEq] at he
    subst he
    exact h
  | cons o os ih =>
    intro hr st h st' he
    have ho : AllReset [o] ∧ AllReset os := by
      cases o with
      | optimize f afun reset fuel => exact ⟨⟨hr.1, hr.2.1, trivial⟩, hr.2.2⟩
      | addNewSample s v => exact ⟨trivial, hr⟩
      | evalAndAdd f x => exact ⟨trivial, hr⟩
    have := op_data P o ho.1 st h
    simp only [imRunOps] at he
    cases hop : imRunOp P o st with
    | ok s => rw [hop] at this he; exact ih ho.2 s this st' he
    | throw e s => rw [hop] at this he; exact ih ho.2 s this st' he
    | ub => rw [hop] at he; cases he
    | diverge => rw [hop] at he; cases he

/-- **C71**: after every history of calls on a new `IMGPO` object in which each `optimize` resets, whatever failed in between: the samples and observations are
paired, they are exactly the pairs given by the user or returned by the objective since the last reset, in order, and every observation is finite. -/
theorem C71_data (P : ImParams XR M) (it : Int) (m : M) (os : List (ImOp XR M)) (hos : AllReset os) (st : ImState XR M)
    (h : imRunOps P os (newIm it m) = some st) :
    st.base.samples.length = st.base.observations.length ∧ st.base.samples.zip st.base.observations = expect st.base.trace ∧
    ∀ v ∈ st.base.observations, AllFinite v := by
  have := runOps_data P os hos (newIm it m) ⟨rfl, rfl, by simp [newIm]⟩ st h
  exact ⟨this.len, this.zip, this.fin⟩

/-! ## A run that satisfies the hypotheses -/

/-- an instance: one dimension, a trivial model, `MaxIterations(n)`, an acquisition function that always promises an improvement -/
noncomputable def exImP (n : Int) : ImParams XR Unit :=
  { bo := { bounded := true, statsEnabled := false, hpPeriod := 0,
            ops := { fresh := fun _ _ => (), compute := fun _ _ _ => .ok (), addSample := fun _ _ _ => .ok (), optHp := fun _ => .ok () },
            initPts := fun _ _ => some [], acqui := fun _ _ _ _ _ => (XR.fin 0, none), acquiOpt := fun _ _ _ _ => .threw,
            startPt := fun _ _ => [], stop := [maxIterations n], stats := [] },
    acq := fun _ _ _ _ => XR.fin 1, est := fun _ _ _ => [XR.fin 0], hpOpt := false }

/-- the objective returns the number of calls made before -/
noncomputable def exImF : StateFun XR Unit := ⟨1, 1, fun tr _ => .ret [XR.fin ((callPts tr).length : ℝ)]⟩
/-- a constant aggregator -/
noncomputable def exImA : List XR → XR := fun _ => XR.fin 0

/-- A run with one expansion: it asks for two evaluations and makes three; level 1 then has three cells. -/
theorem exIm_run : ∃ st', imOptimize (exImP 2) exImF exImA true 2 (newIm 0 ()) = .ok st' ∧ (st'.tree[1]?).map (fun L => L.x.length) = some 3 ∧
    st'.base.currentIteration = 3 := by
  unfold imOptimize
  obtain ⟨R, hR, hl⟩ : ∃ R, (imNewTree : List (Lev XR)) = ⟨[], [], [], [], [], []⟩ :: ⟨[], [], [], [], [], []⟩ :: R ∧ R.length = 998 :=
    ⟨List.replicate 998 _, rfl, List.length_replicate⟩
  rw [hR]
  have hlt : lt (negInf : XR) (XR.fin 0) = true := rfl
  have hlt2 : lt (XR.fin 0) (XR.fin 0) = false := by rw [XR.lt_fin']; norm_num
  have hlt3 : lt (XR.fin 1) (lit 1000000⁻¹) = false := by
    rw [XR.lit_eq, XR.lt_fin']; norm_num
  have hn : ∀ r : ℝ, isNanOrInf [XR.fin r] = false := fun _ => rfl
  have hsd : imSide [lit 0] [(lit 1 : XR)] = some (0, lit 0, lit 1) := rfl
  have hm : ∀ a b : XR, maxElementFrom 0 (XR.fin 0) 1 [a, b] < 3 := fun a b => maxElementFrom_lt [a, b] 0 _ 1 (by omega)
  simp [boInit, imBase, newIm, BoState.push, exImP, evalAll, Res.bind, Res.andThen, imRoot, imLev, hl, exImF, addNewSample, hn, imTick, exImA,
    imLoop, boStop, chainCriteria, maxIterations, imPass, imEach, imStep12, imVisit, imScan, imScanned, hlt, hlt2, imStep3, imStep45, imExpand,
    hsd, imChild, imCompute, withModel, hlt3, bestObservation, maxElement, hm, imFirst, List.range_succ, List.range', callPts]

/-- The hypotheses of `C62_tiling`, `C62_evaluated`, `C71_budget` and `C62_defined` hold for this run. -/
example : 0 < exImF.dimIn ∧ (exImP 2).bo.stop = [maxIterations 2] ∧
    (newIm 0 () : ImState XR Unit).base.samples.length = (newIm 0 () : ImState XR Unit).base.observations.length ∧
    (∃ st', imOptimize (exImP 2) exImF exImA true 2 (newIm 0 ()) = .ok st' ∧ Tiles 1 st'.tree) ∧
    (∀ tr x, exImF.call tr x ≠ .ret []) ∧ (∀ b, boStop (exImP 2).bo exImA b ≠ none) ∧ imOptimize (exImP 2) exImF exImA true 2 (newIm 0 ()) ≠ .ub := by
  have hs : ∀ b, boStop (exImP 2).bo exImA b ≠ none := by
    intro b; simp [boStop, exImP, chainCriteria, maxIterations]
  refine ⟨by simp [exImF], rfl, rfl, ?_, by intro tr x; simp [exImF], hs, ?_⟩
  · obtain ⟨st', h, -, -⟩ := exIm_run
    exact ⟨st', h, (C62_tiling (exImP 2) exImF exImA 2 _ st' (by simp [exImF]) rfl h).1⟩
  · exact C62_defined _ _ _ _ _ (by simp [exImF]) (by intros; simp [exImP]) (by intros; simp [exImP]) (by intros; simp [exImF]) hs
      (by intros; simp [exImP]) rfl (by omega)

/-- The hypotheses of `C71_data` hold for a history with two runs and a sample of the user. -/
example : AllReset [.addNewSample [XR.fin 0] [XR.fin 1], .optimize exImF exImA true 2, .optimize exImF exImA true 3] := by
  simp [AllReset, exImF]

/-! ## What fails -/

/-- **C62/C71, negative**: a run resumed with `reset = false` (the object has just completed a run) adds a second root: the leaves overlap, so they do not tile
`[0,1]^d`; and the centre is evaluated again, but the data receive the old observation, a pair the objective did not return for that call. -/
theorem C62_resumed_overlaps : ∃ st1 st2, imOptimize (exImP 1) exImF exImA true 1 (newIm 0 ()) = .ok st1 ∧
    imOptimize (exImP 1) exImF exImA false 1 st1 = .ok st2 ∧ ¬ Tiles 1 st2.tree ∧
    st2.base.samples.zip st2.base.observations ≠ expect st2.base.trace := by
  unfold imOptimize
  obtain ⟨R, hR, hl⟩ : ∃ R, (imNewTree : List (Lev XR)) = ⟨[], [], [], [], [], []⟩ :: R ∧ R.length = 999 :=
    ⟨List.replicate 999 _, rfl, List.length_replicate⟩
  rw [hR]
  have hn : ∀ r : ℝ, isNanOrInf [XR.fin r] = false := fun _ => rfl
  have ha : ∀ r : ℝ, (isFinite (XR.fin r)) = true := fun _ => rfl
  simp [boInit, imBase, newIm, BoState.push, exImP, evalAll, Res.bind, Res.andThen, imRoot, imLev, exImF, addNewSample, hn, imTick, exImA,
    imLoop, boStop, chainCriteria, maxIterations, callPts, expect, expectFrom, expectStep, ha]
  refine ⟨?_, ?_⟩
  · intro ht
    have e1 : (lit 1 : XR) = XR.fin 1 := by rw [XR.lit_eq]; norm_num
    have e0 : (lit 0 : XR) = XR.fin 0 := by rw [XR.lit_eq]; norm_num
    have e2 : (lit 1 * lit 2⁻¹ : XR) = XR.fin (1 / 2) := by rw [XR.lit_eq, XR.lit_eq, XR.mul_fin]; norm_num
    rw [e2, e0, e1] at ht
    obtain ⟨j, hj, hap⟩ := ht.2 0 0 ⟨[0], [1], [1 / 2]⟩ 0 1 ⟨[0], [1], [1 / 2]⟩ ⟨_, rfl, rfl⟩ ⟨_, rfl, rfl, rfl, rfl⟩ ⟨_, rfl, rfl⟩
      ⟨_, rfl, rfl, rfl, rfl⟩ (by simp)
    have hj0 : j = 0 := by omega
    subst hj0
    simp [crd] at hap
    norm_num at hap
  · intro h
    have h' : (Xt.fin 0 : Xt ℝ) = Xt.fin 1 := h
    injection h' with h'
    norm_num at h'

/-- an instance over `double`: acquisition value `a`, estimate `5`, `MaxIterations(n)` -/
def exImP64 (a : ℚ) (n : Int) : ImParams F64 Unit :=
  { bo := { bounded := true, statsEnabled := false, hpPeriod := 0,
            ops := { fresh := fun _ _ => (), compute := fun _ _ _ => .ok (), addSample := fun _ _ _ => .ok (), optHp := fun _ => .ok () },
            initPts := fun _ _ => some [], acqui := fun _ _ _ _ _ => (F64.of 0, none), acquiOpt := fun _ _ _ _ => .threw,
            startPt := fun _ _ => [], stop := [maxIterations n], stats := [] },
    acq := fun _ _ _ _ => F64.of a, est := fun _ _ _ => [F64.of 5], hpOpt := false }

private theorem exists_ok {σ : Type} {r : Res σ} {φ : σ → Bool} (h : (match r with | .ok s => φ s | _ => false) = true) : ∃ s, r = .ok s ∧ φ s = true := by
  cases r with
  | ok s => exact ⟨s, rfl, h⟩
  | throw e s => cases h
  | ub => cases h
  | diverge => cases h

private theorem exists_throw {σ : Type} {r : Res σ} {φ : σ → Bool} (h : (match r with | .throw .evaluationError s => φ s | _ => false) = true) :
    ∃ s, r = .throw .evaluationError s ∧ φ s = true := by
  cases r with
  | ok s => cases h
  | throw e s => cases e <;> first | exact ⟨s, rfl, h⟩ | cases h
  | ub => cases h
  | diverge => cases h

/-- an objective that is 0 everywhere -/
def exImZero : StateFun F64 Unit := ⟨1, 1, fun _ _ => .ret [F64.of 0]⟩

/-- **C62, negative**: when the point of a cell whose value was only estimated is evaluated later, the cell is marked as evaluated, but keeps the estimate: here
the objective is 0 everywhere and in the data, and the cell keeps the value 5. -/
theorem C62_estimate_kept : ∃ st, imOptimize (exImP64 0 2) exImZero imFirst true 3 (newIm 0 ()) = .ok st ∧
    st.base.observations = [[F64.of 0], [F64.of 0]] ∧ (st.tree[1]?).map (fun L : Lev F64 => L.samp[0]?) = some (some true) ∧
    (st.tree[1]?).map (fun L : Lev F64 => L.x[0]?) = some st.base.samples[1]? ∧ (st.tree[1]?).map (fun L : Lev F64 => L.f[0]?) = some (some [F64.of 5]) := by
  obtain ⟨st, h1, h2⟩ := exists_ok (r := imOptimize (exImP64 0 2) exImZero imFirst true 3 (newIm 0 ()))
    (φ := fun st : ImState F64 Unit => decide (st.base.observations = [[F64.of 0], [F64.of 0]] ∧ (st.tree[1]?).map (fun L : Lev F64 => L.samp[0]?) = some (some true) ∧
      (st.tree[1]?).map (fun L : Lev F64 => L.x[0]?) = some st.base.samples[1]? ∧ (st.tree[1]?).map (fun L : Lev F64 => L.f[0]?) = some (some [F64.of 5])))
    (by decide +kernel)
  exact ⟨st, h1, of_decide_eq_true h2⟩

/-- the second call of the objective returns NaN -/
def exImFail : StateFun F64 Unit := ⟨1, 1, fun tr _ => if (callPts tr).length = 1 then .ret [F64.nan] else .ret [F64.of 0]⟩

/-- **C62, negative**: after `optimize` has thrown because of a NaN, the arrays of a level have different sizes, and a resumed run reads past the end
of one of them. -/
theorem C62_resumed_after_failure_ub : ∃ st, imOptimize (exImP64 1 10) exImFail imFirst true 3 (newIm 0 ()) = .throw .evaluationError st ∧
    (st.tree[1]?).map (fun L : Lev F64 => (L.x.length, L.f.length)) = some (1, 0) ∧ imOptimize (exImP64 1 10) exImFail imFirst false 3 st = .ub := by
  obtain ⟨st, h1, h2⟩ := exists_throw (r := imOptimize (exImP64 1 10) exImFail imFirst true 3 (newIm 0 ()))
    (φ := fun st : ImState F64 Unit => decide ((st.tree[1]?).map (fun L : Lev F64 => (L.x.length, L.f.length)) = some (1, 0)) &&
      (match imOptimize (exImP64 1 10) exImFail imFirst false 3 st with | .ub => true | _ => false))
    (by decide +kernel)
  rw [Bool.and_eq_true] at h2
  refine ⟨st, h1, of_decide_eq_true h2.1, ?_⟩
  have h3 := h2.2
  split at h3
  · assumption
  · cases h3

end Limbo
