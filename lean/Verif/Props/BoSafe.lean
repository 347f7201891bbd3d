import Verif.Lemmas.BoGpSafe
import Verif.Spec.BoSafe
import Verif.Props.BoMultiGp
import Verif.Props.BoSparse
import Verif.Props.BoGp

/-!
**C105**: `BOptimizer` with a `MultiGP` or a `SparsifiedGP` never fails by itself.
-/

namespace Limbo

section general

variable {M : Type} {P : BoParams XR M} {R F : M → List (List XR × List XR) → Prop} {G : M → Prop} {din dout : Nat}

theorem new_shape (P : BoParams XR M) (c : Int) (m : M) : ShapeG (fun _ => True) P.stats.length din dout (newBo P c m) :=
  ⟨by simp [newBo], by simp [newBo], by simp [newBo], trivial⟩

theorem no_ubFor (hM : SafeModel R F G P din dout) (hC : ComponentsFor F P din dout) {st0 : BoState XR M} (h0 : RelT R st0)
    (hs0 : ShapeG (fun _ => True) P.stats.length din dout st0) (ops : List (BoOp XR M)) (hops : ∀ o ∈ ops, BoOpOk din dout o ∧ FreshOk G P o)
    (st : BoState XR M) (h : runOps P ops st0 = some st) (op : BoOp XR M) (hop : BoOpOk din dout op) (hfr : FreshOk G P op) : runOp P op st ≠ .ub := by
  obtain ⟨h1, h2⟩ := runOps_safeFor hM hC ops hops _ st h0 hs0 h
  exact (runOp_safeFor hM hC op hop hfr st h1 h2).ne_ub

theorem optimize_endsFor (hM : SafeModel R F G P din dout) (hC : ComponentsFor F P din dout) {st0 : BoState XR M} (h0 : RelT R st0)
    (hs0 : ShapeG (fun _ => True) P.stats.length din dout st0) (d1 : ∀ a b m, P.ops.compute a b m ≠ .diverge) (d2 : ∀ a b m, P.ops.addSample a b m ≠ .diverge)
    (d3 : ∀ m, P.ops.optHp m ≠ .diverge) (N : Int) (hN : maxIterations N ∈ P.stop)
    (ops : List (BoOp XR M)) (hops : ∀ o ∈ ops, BoOpOk din dout o ∧ FreshOk G P o)
    (st : BoState XR M) (h : runOps P ops st0 = some st) (f : StateFun XR M) (hf : ObjectiveOk din dout f) (hfr : G (P.ops.fresh f.dimIn f.dimOut))
    (afun : List XR → XR) (reset : Bool) (fuel : Nat) (hfuel : N < fuel) :
    (∃ st', optimize P f afun reset (fuel + 1) st = .ok st' ∧ RelQ R st') ∨ ∃ e st', optimize P f afun reset (fuel + 1) st = .throw e st' := by
  have h1 := C04_terminates P N hN f afun d1 d2 d3 reset fuel hfuel st
  have h2 := no_ubFor hM hC h0 hs0 ops hops st h (.optimize f afun reset (fuel + 1)) hf hfr
  have h3 := optimize_rel hM.law f afun reset (fuel + 1) st (runOps_safeFor hM hC ops hops _ st h0 hs0 h).1
  simp only [runOp] at h2
  cases hr : optimize P f afun reset (fuel + 1) st with
  | ok s => rw [hr] at h3; exact Or.inl ⟨s, rfl, h3⟩
  | throw e s => exact Or.inr ⟨e, s, rfl⟩
  | ub => exact absurd hr h2
  | diverge => exact absurd hr h1

theorem every_history_runsFor (hM : SafeModel R F G P din dout) (hC : ComponentsFor F P din dout) {st0 : BoState XR M} (h0 : RelT R st0)
    (hs0 : ShapeG (fun _ => True) P.stats.length din dout st0) (d1 : ∀ a b m, P.ops.compute a b m ≠ .diverge) (d2 : ∀ a b m, P.ops.addSample a b m ≠ .diverge)
    (d3 : ∀ m, P.ops.optHp m ≠ .diverge) (N : Int) (hN : maxIterations N ∈ P.stop)
    (ops : List (BoOp XR M)) (hops : ∀ o ∈ ops, BoOpOk din dout o ∧ FreshOk G P o)
    (hfuel : ∀ f afun reset fuel, BoOp.optimize f afun reset fuel ∈ ops → N + 1 < fuel ∧ 0 < fuel) : ∃ st, runOps P ops st0 = some st := by
  induction ops generalizing st0 with
  | nil => exact ⟨st0, rfl⟩
  | cons o os ih =>
    have h1 := runOp_rel hM.law o st0 h0
    have h2 := runOp_safeFor hM hC o (hops o (by simp)).1 (hops o (by simp)).2 st0 h0 hs0
    have ih' := fun (s : BoState XR M) a b => ih (st0 := s) a b (fun o h => hops o (by simp [h])) (fun f a r n hm => hfuel f a r n (by simp [hm]))
    simp only [runOps]
    cases hr : runOp P o st0 with
    | ok s => rw [hr] at h1 h2; exact ih' s h1 h2
    | throw e s => rw [hr] at h1 h2; exact ih' s h1 h2
    | ub => rw [hr] at h2; exact h2.elim
    | diverge =>
      exfalso
      cases o with
      | optimize f afun reset fuel =>
        obtain ⟨hf1, hf2⟩ := hfuel f afun reset fuel (by simp)
        obtain ⟨n, rfl⟩ := Nat.exists_eq_succ_of_ne_zero hf2.ne'
        exact C04_terminates P N hN f afun d1 d2 d3 reset n (by push_cast at hf1; omega) st0 hr
      | addNewSample s v => simp only [runOp, addNewSample] at hr; split at hr <;> cases hr
      | evalAndAdd f x =>
        simp only [runOp, evalAndAdd] at hr
        split at hr
        · cases hr
        · simp only [addNewSample] at hr; split at hr <;> cases hr

end general

/-! ### `MultiGP` -/

section multi

open MultiGp

variable {E : GpEnv} {u : Nat → Nat → Nat → ℝ × ℝ} {junkC : List (List ℝ) → List (List ℝ) → MultiGpState E → MultiJunk}
  {junkA : List ℝ → List ℝ → MultiGpState E → MultiJunk} {hp : MultiHp E} {P : BoParams XR (MultiGpState E)} {din dout : Nat} {ind : Bool}

theorem multi_query_ok (hE : LawfulEnv E) (hdo : 0 < dout) {g : MultiGpState E} {xs ys : List (List ℝ)} {r : Bool}
    (hr : MgReach E ind ⟨xs, ys, r, true, true, true, true⟩ g) (hg : g.dimOut = dout) (v : List ℝ) :
    ∃ m σ, MultiGp.query g v = some (m, σ) ∧ m.length = dout ∧ σ.length = dout := by
  have T := hr.tracks hE
  have hl : g.models.length = dout := by have := T.len; rw [hg] at this; omega
  have hguard : ¬(g.dimOut ≤ 0 ∨ (g.models.length : Int) ≠ g.dimOut) := by rw [hg, hl]; omega
  have hsub : ∀ (c : Nat) (s : GpState E.sub), g.models[c]? = some s → ∃ m σ, Gp.query s v = some (m, σ) := by
    intro c s hs
    obtain ⟨A, TA, e1, e2, -, e4, -⟩ := T.subs c s hs
    by_cases hx : xs = []
    · have h0 : s.samples.length = 0 := by rw [T.samples hs, hx]; rfl
      unfold Gp.query
      rw [if_pos h0]
      exact ⟨_, _, rfl⟩
    · obtain ⟨di, do', hh⟩ := TA.ne (by rw [e1]; exact hx)
      obtain ⟨h1, -⟩ := Gp.mu_spec (sub_lawful hE) TA (by rw [e1]; exact hx) (e4 rfl) hh.data v
      obtain ⟨h2, -⟩ := Gp.sigma_spec (sub_lawful hE) TA (by rw [e1]; exact hx) (e2 rfl) v
      rw [C28_query_is_mu_sigma, h1, h2]
      exact ⟨_, _, rfl⟩
  obtain ⟨l, hlq⟩ := loopM_ok (f := fun i s => (Gp.query s v).map fun r => (r.1 0 + MultiGp.meanAt g v i, r.2)) (i := 0) (l := g.models) (by
    intro n s hs
    obtain ⟨m, σ, h⟩ := hsub n s hs
    exact ⟨_, by rw [h]; rfl⟩)
  refine ⟨l.map (·.1), l.map (·.2), ?_, ?_, ?_⟩
  · unfold MultiGp.query; rw [if_neg hguard, hlq]; rfl
  · rw [List.length_map, (loopM_spec hlq).1, hl]
  · rw [List.length_map, (loopM_spec hlq).1, hl]

/-- a `MultiGP` does its job -/
theorem multiSafe (hE : LawfulEnv E) (hP : P.ops = multiGpOps E u junkC junkA hp) (hind : ind = true → E.M.IgnoresData) (hdef : E.M.IgnoresData → ind = true)
    (hdo : 0 < dout) (hhp : 0 < P.hpPeriod → MultiHpOk hp) :
    SafeModel (MultiRel ind) (MultiGpReady din dout) (fun g : MultiGpState E => g.dimIn = din ∧ g.dimOut = dout) P din dout where
  law := by rw [hP]; exact multiGpOps_lawful hind
  fits {m d} hR hG := by
    obtain ⟨xs, ys, r, hl, rfl, hri, hr⟩ := id hR
    have T := hr.tracks hE
    refine ⟨hG.1, hG.2, by have := T.len; rw [hG.2] at this; omega, hR.holds hE, fun hi => ?_, multi_query_ok hE hdo hr hG.2⟩
    rw [hdef hi] at hR
    exact hR.mean hE
  compute {m d} hR {xs ys} hds := by
    obtain ⟨xs0, ys0, r, hl0, -, -, hr0⟩ := id hR
    obtain ⟨m', hmm, -, -, h1, h2, -⟩ := compute_ok hE (hr0.tracks hE) (junkC xs ys m) hds true ind
    refine ⟨m', ?_, h1, h2⟩
    rw [hP]
    show mgRes _ = _
    rw [realsL?_map, Option.bind_some, realsL?_map, Option.bind_some, hmm]; rfl
  add {m xs ys} hR hG hl {x y} hds := by
    obtain ⟨xs0, ys0, r, hl0, he, -, hr0⟩ := id hR
    obtain ⟨rfl, rfl⟩ := finPairs_inj hl hl0 he
    obtain ⟨m', hm, -, -, h1, h2, -⟩ := add_ok hE (hr0.tracks hE) (junkA x y m) hds (Or.inr hG) hind
    refine ⟨m', ?_, h1, h2⟩
    rw [hP]
    show mgRes _ = _
    rw [reals?_map, Option.bind_some, reals?_map, Option.bind_some, hm]; rfl
  hp hper {m d} hR hne hG := by
    obtain ⟨xs, ys, r, hl, he, -, hr⟩ := hR
    obtain ⟨g, hg⟩ := Option.ne_none_iff_exists'.1 (hhp hper ind xs ys r m (by rintro rfl; exact hne (by rw [he]; simp [finPairs])) hr)
    refine ⟨g, by rw [hP]; show mgRes _ = _; rw [hg]; rfl, ?_⟩
    cases hp with
    | none => cases hg
    | parallel loo O J j =>
      cases loo
      all_goals
        change (loopM _ 0 m.models).map _ = some g at hg
        rw [Option.map_eq_some_iff] at hg
        obtain ⟨ms, -, rfl⟩ := hg
        exact hG

theorem multi_fresh {op : BoOp XR (MultiGpState E)} (hP : P.ops = multiGpOps E u junkC junkA hp) (h : BoOpOk din dout op) (h' : AnnouncesOutputs dout op) :
    FreshOk (fun g : MultiGpState E => g.dimIn = din ∧ g.dimOut = dout) P op := by
  cases op with
  | optimize f afun reset fuel =>
    show _ ∧ _
    rw [hP]
    exact ⟨congrArg Int.ofNat h.1, congrArg Int.ofNat h'⟩
  | addNewSample s v => trivial
  | evalAndAdd f x => trivial

theorem mgRes_nodiv (o : Option (MultiGpState E)) : mgRes o ≠ .diverge := by cases o <;> simp [mgRes]

open Classical in
/-- **C105**: with a `MultiGP`, components that do their job, an objective of fixed dimensions which it announces, and points of the right
dimension, no call of any history runs into undefined behaviour. -/
theorem C105_multi_no_undefined_behaviour (hE : LawfulEnv E) (hP : P.ops = multiGpOps E u junkC junkA hp) (hC : ComponentsFor (MultiGpReady din dout) P din dout)
    (hhp : 0 < P.hpPeriod → MultiHpOk hp) (c : Int) (ops : List (BoOp XR (MultiGpState E)))
    (hops : ∀ o ∈ ops, BoOpOk din dout o ∧ AnnouncesOutputs dout o) (st : BoState XR (MultiGpState E))
    (h : runOps P ops (newBo P c (MultiGp.new E)) = some st) (op : BoOp XR (MultiGpState E)) (hop : BoOpOk din dout op) (hop' : AnnouncesOutputs dout op) :
    runOp P op st ≠ .ub :=
  no_ubFor (multiSafe (ind := decide E.M.IgnoresData) hE hP (by simp) (by simp) hC.dout_pos hhp) hC (newBo_multi (by simp) c) (new_shape P c _) ops
    (fun o ho => ⟨(hops o ho).1, multi_fresh hP (hops o ho).1 (hops o ho).2⟩) st h op hop (multi_fresh hP hop hop')

open Classical in
/-- **C105**: with `MaxIterations` a run ends: normally, with a `MultiGP` fitted to everything stored, or by passing on an exception. -/
theorem C105_multi_optimize_ends (hE : LawfulEnv E) (hP : P.ops = multiGpOps E u junkC junkA hp) (hC : ComponentsFor (MultiGpReady din dout) P din dout)
    (hhp : 0 < P.hpPeriod → MultiHpOk hp) (N : Int) (hN : maxIterations N ∈ P.stop) (c : Int) (ops : List (BoOp XR (MultiGpState E)))
    (hops : ∀ o ∈ ops, BoOpOk din dout o ∧ AnnouncesOutputs dout o) (st : BoState XR (MultiGpState E))
    (h : runOps P ops (newBo P c (MultiGp.new E)) = some st) (f : StateFun XR (MultiGpState E)) (hf : ObjectiveOk din dout f) (hf' : f.dimOut = dout)
    (afun : List XR → XR) (reset : Bool) (fuel : Nat) (hfuel : N < fuel) :
    (∃ st', optimize P f afun reset (fuel + 1) st = .ok st' ∧ MultiGpHolds st'.model (st'.samples.zip st'.observations)) ∨
    ∃ e st', optimize P f afun reset (fuel + 1) st = .throw e st' := by
  have hM := multiSafe (din := din) (ind := decide E.M.IgnoresData) hE hP (by simp) (by simp) hC.dout_pos hhp
  refine (optimize_endsFor hM hC (newBo_multi (by simp) c) (new_shape P c _) (by rw [hP]; intro _ _ _; exact mgRes_nodiv _)
    (by rw [hP]; intro _ _ _; exact mgRes_nodiv _) (by rw [hP]; intro _; exact mgRes_nodiv _) N hN ops
    (fun o ho => ⟨(hops o ho).1, multi_fresh hP (hops o ho).1 (hops o ho).2⟩) st h f hf
    (multi_fresh (op := .optimize f afun reset fuel) hP hf hf') afun reset fuel hfuel).imp (fun ⟨s, h1, h2⟩ => ⟨s, h1, h2.model.holds hE⟩) id

open Classical in
/-- **C105**: every history of careful calls can be executed to its end. -/
theorem C105_multi_every_history_runs (hE : LawfulEnv E) (hP : P.ops = multiGpOps E u junkC junkA hp) (hC : ComponentsFor (MultiGpReady din dout) P din dout)
    (hhp : 0 < P.hpPeriod → MultiHpOk hp) (N : Int) (hN : maxIterations N ∈ P.stop) (c : Int) (ops : List (BoOp XR (MultiGpState E)))
    (hops : ∀ o ∈ ops, BoOpOk din dout o ∧ AnnouncesOutputs dout o)
    (hfuel : ∀ f afun reset fuel, BoOp.optimize f afun reset fuel ∈ ops → N + 1 < fuel ∧ 0 < fuel) :
    ∃ st, runOps P ops (newBo P c (MultiGp.new E)) = some st :=
  every_history_runsFor (multiSafe (din := din) (ind := decide E.M.IgnoresData) hE hP (by simp) (by simp) hC.dout_pos hhp) hC (newBo_multi (by simp) c)
    (new_shape P c _) (by rw [hP]; intro _ _ _; exact mgRes_nodiv _) (by rw [hP]; intro _ _ _; exact mgRes_nodiv _)
    (by rw [hP]; intro _; exact mgRes_nodiv _) N hN ops (fun o ho => ⟨(hops o ho).1, multi_fresh hP (hops o ho).1 (hops o ho).2⟩) hfuel

/-- **C105**: `ParallelLFOpt` with `KernelLFOpt<Rprop>` on the outputs does its job for every kernel of the library. -/
theorem C105_parallel_opt_never_fails (hE : LawfulEnv E) (hI : StdKernel E.K) (hn : E.KP.optimizeNoise = true → 0 < E.KP.noise)
    (iterations : MultiGpState E → Nat → Int) (hit : ∀ s c, 0 < iterations s c) (epsStop : XR) (he : le (lit 0) epsStop = true)
    (J : MultiGpState E → Nat → List ℝ → Nat → Nat → ℝ) (j : MultiGpState E → MultiJunk) :
    MultiHpOk (.parallel false (fun s c => rprop (iterations s c) epsStop) J j : MultiHp E) := by
  intro ind xs ys r g hx hr
  have T := hr.tracks hE
  have hsub : ∀ (c : Nat) (s : GpState E.sub), g.models[c]? = some s →
      ∃ s', Gp.kernelLFOpt (rprop (iterations g c) epsStop) (J g c) ((j g).mat c) s = some s' := by
    intro c s hs
    obtain ⟨A, TA, e1, e2, e3, e4, -, -, e7⟩ := T.subs c s hs
    obtain ⟨di, hds⟩ := e7 hx
    obtain ⟨s', v, v', h1, -⟩ := kernel_lf_opt_tracks (E := E.sub) (sub_lawful hE) hI hn TA ⟨by rw [e1]; exact hx, e2 rfl, e3 rfl, e4 rfl⟩ hds (hit g c) he
      (J g c) ((j g).mat c)
    exact ⟨s', h1⟩
  obtain ⟨ms, hms⟩ := loopM_ok (f := fun c s => Gp.kernelLFOpt (rprop (iterations g c) epsStop) (J g c) ((j g).mat c) s) (i := 0) (l := g.models) (by
    intro c s hs
    obtain ⟨s', h⟩ := hsub c s hs
    exact ⟨s', by rw [Nat.zero_add]; exact h⟩)
  show (loopM _ 0 g.models).map _ ≠ none
  rw [hms]; simp

end multi

/-! ### `SparsifiedGP` -/

section sparse

open Gp Sparse

variable {E : GpEnv} {u : Nat → Nat → ℝ × ℝ} {N : Int} {K : List (List ℝ) → List (List ℝ) → GpState E → SparseGp.Ctx}
  {KA : List ℝ → List ℝ → GpState E → (Nat → Nat → ℝ) × SparseGp.Ctx} {hp : HpFunctor E} {P : BoParams XR (GpState E)} {din dout : Nat}

/-- one round of thinning does not fail, whatever the distances -/
theorem mostDense_ok {d : List ℝ → List ℝ → XR} (hn : ∀ x y, isNaN (d x y) = false) {xs : List (List ℝ)} {dist : Nat → Nat → XR} (h : DistOK d xs dist)
    {D : Nat} (hD : D < xs.length) {order : List Nat} (ho : order.Perm (List.range xs.length)) :
    ∃ k, mostDense order D xs.length dist = some k ∧ ∀ i, k = some i → i < xs.length := by
  have hmem : ∀ {i}, i ∈ order ↔ i < xs.length := fun {i} => by rw [ho.mem_iff]; simp
  have hfold : ∀ l : List Nat, (∀ i ∈ l, i < xs.length) → ∀ s : XR × Option Nat, (∀ i, s.2 = some i → i < xs.length) →
      ∀ i, (l.foldl (fun s i => update (crowdOf d D xs i) i s) s).2 = some i → i < xs.length := by
    intro l
    induction l with
    | nil => intro _ s hs; exact hs
    | cons a l ih =>
      intro hl s hs
      refine ih (fun i hi => hl i (by simp [hi])) _ ?_
      intro i hi
      simp only [update] at hi
      split at hi
      · cases hi; exact hl _ (by simp)
      · exact hs i hi
  unfold mostDense
  rw [foldl_some (f := fun i s => update (crowdOf d D xs i) i s)]
  · exact ⟨_, rfl, hfold order (fun i hi => hmem.1 hi) _ (by simp)⟩
  · intro i hi s
    obtain ⟨x, hx⟩ : ∃ x, xs[i]? = some x := ⟨_, List.getElem?_eq_getElem (hmem.1 hi)⟩
    rw [crowding_eq h hx (fun x _ y _ => hn x y) hD]
    rfl

theorem thinLoop_ok {d : List ℝ → List ℝ → XR} (hn : ∀ x y, isNaN (d x y) = false) {D lim : Nat} {sched : Nat → List Nat} (h0 : 0 < D) (hD : D ≤ lim)
    (hs : ∀ n, (sched n).Perm (List.range n)) :
    ∀ (fuel : Nat) (xs ys : List (List ℝ)) (dist : Nat → Nat → XR), xs ≠ [] → (∀ x ∈ xs, x.length = D) → DistOK d xs dist →
      ∃ xs' ys', thinLoop List.length lim sched fuel xs ys dist = some (xs', ys') ∧ xs' ≠ []
  | 0, xs, ys, dist, hne, _, _ => ⟨xs, ys, rfl, hne⟩
  | fuel + 1, xs, ys, dist, hne, hdim, hok => by
    unfold thinLoop
    by_cases hgt : xs.length > lim
    · rw [if_pos hgt]
      cases xs with
      | nil => simp at hgt
      | cons x0 xs =>
        simp only
        obtain ⟨k, he, hk⟩ := mostDense_ok hn hok (D := D) (by omega) (hs _)
        rw [hdim x0 (by simp), he]
        simp only [Option.bind_some]
        cases k with
        | none => exact ⟨_, _, rfl, hne⟩
        | some i =>
          refine thinLoop_ok hn h0 hD hs fuel _ _ _ ?_ (fun x hx => hdim x (List.mem_of_mem_eraseIdx hx)) (hok.erase i)
          intro e
          have := congrArg List.length e
          rw [List.length_eraseIdx, if_pos (hk i rfl), List.length_nil] at this
          omega
    · rw [if_neg hgt]
      exact ⟨xs, ys, rfl, hne⟩

theorem sparse_compute_ok (hE : LawfulEnv E) (hN : (din : Int) ≤ N) {c : SparseGp.Ctx} (hc : c.maxPoints = N)
    (hs : ∀ n, (c.sched n).Perm (List.range n)) {A : GpAbs} {g : GpState E} (hr : GpReach E A g) {xs ys : List (List ℝ)} (hd : DataSet xs ys din dout) :
    ∃ g', SparseGp.compute c g xs ys true = some g' := by
  unfold SparseGp.compute
  split
  · obtain ⟨s, h1, -⟩ := track_compute hE c.junk (hr.tracks hE) hd true
    exact ⟨s, h1⟩
  · obtain ⟨xs', ys', h1, hne⟩ := thinLoop_ok (d := fun x y => XR.fin (dist2 x y)) (fun _ _ => rfl) hd.din_pos (D := din) (lim := limit N)
      (by rw [limit_eq hd.din_pos hN]; omega) hs xs.length xs ys _ hd.nonempty hd.inputs (distances_ok _ c.diag xs)
    obtain ⟨e1, e2⟩ := thinLoop_sub _ _ _ _ h1 hd.same
    have hd' : DataSet xs' ys' din dout := by
      refine ⟨hne, e1, ?_, ?_, hd.din_pos, hd.dout_pos⟩
      · intro x hx
        obtain ⟨i, hi, rfl⟩ := List.getElem_of_mem hx
        have hm : (xs'[i], ys'[i]'(by omega)) ∈ xs'.zip ys' := by
          rw [List.mem_iff_getElem]; exact ⟨i, by rw [List.length_zip]; omega, by simp⟩
        exact hd.inputs _ (List.of_mem_zip (e2.subset hm)).1
      · intro y hy
        obtain ⟨i, hi, rfl⟩ := List.getElem_of_mem hy
        have hm : (xs'[i]'(by omega), ys'[i]) ∈ xs'.zip ys' := by
          rw [List.mem_iff_getElem]; exact ⟨i, by rw [List.length_zip]; omega, by simp⟩
        exact hd.outputs _ (List.of_mem_zip (e2.subset hm)).2
    obtain ⟨s, h2, -⟩ := track_compute hE c.junk (hr.tracks hE) hd' true
    rw [hc, show sparsify (fun x y => XR.fin (dist2 x y)) List.length N c.sched c.diag xs ys = some (xs', ys') from h1]
    exact ⟨s, h2⟩

/-- a `SparsifiedGP` does its job -/
theorem sparseSafe (hE : LawfulEnv E) (h0 : 0 < din) (hd : din < 2 ^ 31) (hN : (din : Int) ≤ N)
    (hK : ∀ xs ys g, (K xs ys g).maxPoints = N ∧ ∀ n, ((K xs ys g).sched n).Perm (List.range n))
    (hKA : ∀ x y g, (KA x y g).2.maxPoints = N ∧ ∀ n, ((KA x y g).2.sched n).Perm (List.range n))
    (hP : P.ops = sparseOps E u K KA hp) (hhp : 0 < P.hpPeriod → HpOk hp) :
    SafeModel (SparseRel N din) (FitsPart N.toNat din) (fun _ : GpState E => True) P din dout where
  law := by rw [hP]; exact sparseOps_lawful hE h0 hd hN hK hKA
  fits hR _ := hR.fits hE h0 hN
  compute {m d} hR {xs ys} hds := by
    obtain ⟨xs0, ys0, -, -, -, -, -, hr0⟩ := id hR
    obtain ⟨m', hm⟩ := sparse_compute_ok hE hN (hK xs ys m).1 (hK xs ys m).2 hr0 hds
    refine ⟨m', ?_, trivial⟩
    rw [hP]
    show gpRes _ = _
    rw [realsL?_map, Option.bind_some, realsL?_map, Option.bind_some, hm]; rfl
  add {m xs ys} hR _ hl {x y} hds := by
    obtain ⟨xs0, ys0, hl0, hsub, -, -, -, hr0⟩ := id hR
    have hd0 : DataSet (xs0 ++ [x]) (ys0 ++ [y]) din dout := by
      have hmem : ∀ p ∈ xs0.zip ys0, p ∈ xs.zip ys := by
        intro p hp
        have h1 : (p.1.map XR.fin, p.2.map XR.fin) ∈ finPairs xs ys := hsub.subset (List.mem_map_of_mem hp)
        obtain ⟨q, hq, e⟩ := List.mem_map.1 h1
        simp only [Prod.mk.injEq] at e
        have inj : Function.Injective (List.map XR.fin) := List.map_injective_iff.2 fun a b h => by cases h; rfl
        rwa [← Prod.ext (inj e.1) (inj e.2)]
      refine ⟨by simp, by simp [hl0], ?_, ?_, hds.din_pos, hds.dout_pos⟩
      · intro z hz
        rcases List.mem_append.1 hz with hz | hz
        · obtain ⟨i, hi, rfl⟩ := List.getElem_of_mem hz
          have hm : (xs0[i], ys0[i]'(by omega)) ∈ xs0.zip ys0 := by
            rw [List.mem_iff_getElem]; exact ⟨i, by rw [List.length_zip]; omega, by simp⟩
          exact hds.inputs _ (List.mem_append_left _ (List.of_mem_zip (hmem _ hm)).1)
        · exact hds.inputs _ (List.mem_append_right _ hz)
      · intro z hz
        rcases List.mem_append.1 hz with hz | hz
        · obtain ⟨i, hi, rfl⟩ := List.getElem_of_mem hz
          have hm : (xs0[i]'(by omega), ys0[i]) ∈ xs0.zip ys0 := by
            rw [List.mem_iff_getElem]; exact ⟨i, by rw [List.length_zip]; omega, by simp⟩
          exact hds.outputs _ (List.mem_append_left _ (List.of_mem_zip (hmem _ hm)).2)
        · exact hds.outputs _ (List.mem_append_right _ hz)
    obtain ⟨m0, hm0, -⟩ := track_add hE (KA x y m).1 (hr0.tracks hE) hd0
    have hr1 : GpReach E ⟨xs0 ++ [x], ys0 ++ [y], true, true, true, true⟩ m0 := hr0.step (op := .add x y) trivial hm0
    obtain ⟨hx, hy⟩ := C65_data hE hr1
    have hxs : m0.samples = xs0 ++ [x] := hx
    have hrows : m0.obs.rows = (xs0 ++ [x]).length := by
      have := congrArg List.length hy
      simp only [observationsOf, List.length_map, List.length_range] at this
      rw [this]; simp [hl0]
    have hobs : ((List.range (xs0 ++ [x]).length).map fun i => (List.range m0.obs.cols).map fun c => m0.obs.e i c) = ys0 ++ [y] := by
      rw [← hrows]; exact hy
    obtain ⟨m', hm'⟩ : ∃ m', SparseGp.addSample (KA x y m).1 (KA x y m).2 m x y = some m' := by
      unfold SparseGp.addSample
      rw [hm0, Option.bind_some]
      split
      · rw [hxs]
        simp only [hobs]
        exact sparse_compute_ok hE hN (hKA x y m).1 (hKA x y m).2 hr1 hd0
      · exact ⟨_, rfl⟩
    refine ⟨m', ?_, trivial⟩
    rw [hP]
    show gpRes _ = _
    rw [reals?_map, Option.bind_some, reals?_map, Option.bind_some, hm']; rfl
  hp hper {m d} hR hne _ := by
    obtain ⟨xs, ys, hl, -, -, -, hx, hr⟩ := hR
    obtain ⟨g, hg⟩ := Option.ne_none_iff_exists'.1 (hhp hper _ _ hr ⟨hx hne, rfl, rfl, rfl⟩ rfl)
    exact ⟨g, by rw [hP]; show gpRes _ = _; rw [hg]; rfl, trivial⟩

/-- **C105**: with a `SparsifiedGP` whose `max_points` is at least the dimension, whatever the schedules of its parallel loop, components that
do their job, an objective of fixed dimensions and points of the right dimension, no call of any history runs into undefined behaviour. -/
theorem C105_sparse_no_undefined_behaviour (hE : LawfulEnv E) (hd : din < 2 ^ 31) (hN : (din : Int) ≤ N)
    (hK : ∀ xs ys g, (K xs ys g).maxPoints = N ∧ ∀ n, ((K xs ys g).sched n).Perm (List.range n))
    (hKA : ∀ x y g, (KA x y g).2.maxPoints = N ∧ ∀ n, ((KA x y g).2.sched n).Perm (List.range n))
    (hP : P.ops = sparseOps E u K KA hp) (hC : ComponentsFor (FitsPart N.toNat din) P din dout) (hhp : 0 < P.hpPeriod → HpOk hp) (c : Int) (u0 : ℝ × ℝ)
    (ops : List (BoOp XR (GpState E))) (hops : ∀ o ∈ ops, BoOpOk din dout o) (st : BoState XR (GpState E))
    (h : runOps P ops (newBo P c (Gp.new E u0)) = some st) (op : BoOp XR (GpState E)) (hop : BoOpOk din dout op) : runOp P op st ≠ .ub :=
  no_ubFor (sparseSafe hE hC.din_pos hd hN hK hKA hP hhp) hC (newBo_sparse c u0) (new_shape P c _) ops (fun o ho => ⟨hops o ho, freshOk_true o⟩) st h op hop
    (freshOk_true op)

/-- **C105**: with `MaxIterations` a run ends: normally, with a `SparsifiedGP` fitted to part of what is stored (as in C102), or by passing on an
exception. -/
theorem C105_sparse_optimize_ends (hE : LawfulEnv E) (hd : din < 2 ^ 31) (hN : (din : Int) ≤ N)
    (hK : ∀ xs ys g, (K xs ys g).maxPoints = N ∧ ∀ n, ((K xs ys g).sched n).Perm (List.range n))
    (hKA : ∀ x y g, (KA x y g).2.maxPoints = N ∧ ∀ n, ((KA x y g).2.sched n).Perm (List.range n))
    (hP : P.ops = sparseOps E u K KA hp) (hC : ComponentsFor (FitsPart N.toNat din) P din dout) (hhp : 0 < P.hpPeriod → HpOk hp)
    (L : Int) (hL : maxIterations L ∈ P.stop) (c : Int) (u0 : ℝ × ℝ)
    (ops : List (BoOp XR (GpState E))) (hops : ∀ o ∈ ops, BoOpOk din dout o) (st : BoState XR (GpState E))
    (h : runOps P ops (newBo P c (Gp.new E u0)) = some st) (f : StateFun XR (GpState E)) (hf : ObjectiveOk din dout f)
    (afun : List XR → XR) (reset : Bool) (fuel : Nat) (hfuel : L < fuel) :
    (∃ st', optimize P f afun reset (fuel + 1) st = .ok st' ∧ FitsPart N.toNat din st'.model (st'.samples.zip st'.observations)) ∨
    ∃ e st', optimize P f afun reset (fuel + 1) st = .throw e st' := by
  have hres : ∀ o : Option (GpState E), gpRes o ≠ .diverge := by intro o; cases o <;> simp [gpRes]
  exact (optimize_endsFor (sparseSafe hE hC.din_pos hd hN hK hKA hP hhp) hC (newBo_sparse c u0) (new_shape P c _) (by rw [hP]; intro _ _ _; exact hres _)
    (by rw [hP]; intro _ _ _; exact hres _) (by rw [hP]; intro _; exact hres _) L hL ops (fun o ho => ⟨hops o ho, freshOk_true o⟩) st h f hf trivial
    afun reset fuel hfuel).imp (fun ⟨s, h1, h2⟩ => ⟨s, h1, h2.model.fits hE hC.din_pos hN⟩) id

/-- **C105**: every history of careful calls can be executed to its end. -/
theorem C105_sparse_every_history_runs (hE : LawfulEnv E) (hd : din < 2 ^ 31) (hN : (din : Int) ≤ N)
    (hK : ∀ xs ys g, (K xs ys g).maxPoints = N ∧ ∀ n, ((K xs ys g).sched n).Perm (List.range n))
    (hKA : ∀ x y g, (KA x y g).2.maxPoints = N ∧ ∀ n, ((KA x y g).2.sched n).Perm (List.range n))
    (hP : P.ops = sparseOps E u K KA hp) (hC : ComponentsFor (FitsPart N.toNat din) P din dout) (hhp : 0 < P.hpPeriod → HpOk hp)
    (L : Int) (hL : maxIterations L ∈ P.stop) (c : Int) (u0 : ℝ × ℝ) (ops : List (BoOp XR (GpState E))) (hops : ∀ o ∈ ops, BoOpOk din dout o)
    (hfuel : ∀ f afun reset fuel, BoOp.optimize f afun reset fuel ∈ ops → L + 1 < fuel ∧ 0 < fuel) :
    ∃ st, runOps P ops (newBo P c (Gp.new E u0)) = some st := by
  have hres : ∀ o : Option (GpState E), gpRes o ≠ .diverge := by intro o; cases o <;> simp [gpRes]
  exact every_history_runsFor (sparseSafe hE hC.din_pos hd hN hK hKA hP hhp) hC (newBo_sparse c u0) (new_shape P c _) (by rw [hP]; intro _ _ _; exact hres _)
    (by rw [hP]; intro _ _ _; exact hres _) (by rw [hP]; intro _; exact hres _) L hL ops (fun o ho => ⟨hops o ho, freshOk_true o⟩) hfuel

end sparse

/-! ### The hypotheses are met -/

section examples

variable {M : Type}

/-- two inputs, two initial points, three iterations, hyper-parameters every second iteration; the inner optimizer proposes a point that
depends on the number of samples and throws after the tenth -/
noncomputable def exSafeP (ops : ModelOps XR M) : BoParams XR M where
  bounded := true
  statsEnabled := true
  hpPeriod := 2
  ops := ops
  initPts := fun _ d => some [List.replicate d (XR.fin 0), List.replicate d (XR.fin 1)]
  acqui := fun _ _ _ => fun _ _ => (XR.fin 0, none)
  acquiOpt := fun st _ x _ => if 10 < st.samples.length then .threw else .point (x.map fun _ => XR.fin (1 / (st.samples.length + 1)))
  startPt := fun _ d => List.replicate d (XR.fin (1/2))
  stop := [maxIterations 3]
  stats := [statSamples, statObservations, statAggregated]

theorem exSafeP_ok (F : M → List (List XR × List XR) → Prop) (ops : ModelOps XR M) {dout : Nat} (h : 0 < dout) : ComponentsFor F (exSafeP ops) 2 dout where
  din_pos := by norm_num
  dout_pos := h
  init _ := ⟨_, rfl, by
    intro x hx
    simp only [List.mem_cons, List.not_mem_nil, or_false] at hx
    rcases hx with rfl | rfl
    · exact ⟨fun y hy => ⟨0, (List.mem_replicate.1 hy).2⟩, rfl⟩
    · exact ⟨fun y hy => ⟨1, (List.mem_replicate.1 hy).2⟩, rfl⟩⟩
  inner st afun _ := by
    show (∃ y, (if 10 < st.samples.length then OptRes.threw else _) = OptRes.point y ∧ _) ∨ (if 10 < st.samples.length then OptRes.threw else _) = _
    split
    · exact Or.inr rfl
    · refine Or.inl ⟨_, rfl, ?_, by simp [exSafeP]⟩
      intro y hy
      rw [List.mem_map] at hy
      obtain ⟨_, -, rfl⟩ := hy
      exact ⟨_, rfl⟩
  stop c hc st afun _ := by
    simp only [exSafeP, List.mem_singleton] at hc
    subst hc; simp [maxIterations]
  stats s hs st afun _ := by
    simp only [exSafeP, List.mem_cons, List.not_mem_nil, or_false] at hs
    rcases hs with rfl | rfl | rfl <;> simp [statSamples, statObservations, statAggregated]

/-- two objectives: the first coordinate, and the number of calls so far (NaN at the fourth call) -/
noncomputable def exSafeF : StateFun XR M where
  dimIn := 2
  dimOut := 2
  call := fun tr x => .ret [x.headD (XR.fin 0), if (callPts tr).length = 3 then (Xt.nan : Xt ℝ) else XR.fin (callPts tr).length]

/-- a point given by hand, then a run that meets the NaN and throws, then another run -/
noncomputable def exSafeOps : List (BoOp XR M) :=
  [.addNewSample [XR.fin (1/4), XR.fin (1/3)] [XR.fin 2, XR.fin 5], .optimize exSafeF (fun v => v.headD (XR.fin 0)) false 10,
    .optimize exSafeF (fun v => v.headD (XR.fin 0)) false 12]

theorem exSafeF_ok : ObjectiveOk 2 2 (exSafeF : StateFun XR M) := by
  refine ⟨rfl, ?_⟩
  intro tr x v hv
  simp only [exSafeF, CallRes.ret.injEq] at hv
  rw [← hv]; rfl

theorem exSafeOps_ok : ∀ o ∈ (exSafeOps : List (BoOp XR M)), BoOpOk 2 2 o ∧ AnnouncesOutputs 2 o := by
  intro o ho
  simp only [exSafeOps, List.mem_cons, List.not_mem_nil, or_false] at ho
  rcases ho with rfl | rfl | rfl
  · refine ⟨⟨⟨?_, rfl⟩, rfl⟩, trivial⟩
    intro y hy
    simp only [List.mem_cons, List.not_mem_nil, or_false] at hy
    rcases hy with rfl | rfl
    · exact ⟨_, rfl⟩
    · exact ⟨_, rfl⟩
  · exact ⟨exSafeF_ok, rfl⟩
  · exact ⟨exSafeF_ok, rfl⟩

theorem exSafeOps_fuel : ∀ f afun reset fuel, BoOp.optimize f afun reset fuel ∈ (exSafeOps : List (BoOp XR M)) → (3 : Int) + 1 < fuel ∧ 0 < fuel := by
  intro f afun reset fuel hm
  simp only [exSafeOps, List.mem_cons, List.not_mem_nil, or_false, reduceCtorEq, false_or, BoOp.optimize.injEq] at hm
  rcases hm with hm | hm <;> rw [hm.2.2.2] <;> norm_num

/-- hyper-parameter optimization by `ParallelLFOpt<KernelLFOpt<Rprop>>`, 300 steps -/
noncomputable def exMultiHp : MultiHp exEnv :=
  .parallel false (fun _ _ => rprop 300 (lit 0)) (fun _ _ _ _ _ => 7) (fun _ => ⟨fun _ _ _ => 5, fun _ => (3, 4)⟩)

theorem exMultiHp_ok : MultiHpOk exMultiHp :=
  C105_parallel_opt_never_fails exEnv_lawful (.seArd 0 (by norm_num)) (fun _ => by show (0:ℝ) < 0.01; norm_num) (fun _ _ => 300)
    (fun _ _ => by norm_num) (lit 0) (show le (XR.fin _) (XR.fin _) = true by rw [XR.le_fin]) _ _

noncomputable def exSafeMulti : BoParams XR (MultiGpState exEnv) :=
  exSafeP (multiGpOps exEnv (fun _ _ _ => (1, 2)) (fun _ _ _ => ⟨fun _ _ _ => 7, fun _ => (3, 4)⟩) (fun _ _ _ => ⟨fun _ _ _ => 7, fun _ => (3, 4)⟩) exMultiHp)

example : ∃ st, runOps exSafeMulti exSafeOps (newBo exSafeMulti 0 (MultiGp.new exEnv)) = some st ∧
    ∀ op, BoOpOk 2 2 op → AnnouncesOutputs 2 op → runOp exSafeMulti op st ≠ .ub := by
  obtain ⟨st, h⟩ := C105_multi_every_history_runs exEnv_lawful (P := exSafeMulti) rfl (exSafeP_ok _ _ (by norm_num)) (fun _ => exMultiHp_ok) 3 (List.mem_singleton.2 rfl) 0
    exSafeOps exSafeOps_ok exSafeOps_fuel
  exact ⟨st, h, fun op ho ho' => C105_multi_no_undefined_behaviour exEnv_lawful (P := exSafeMulti) rfl (exSafeP_ok _ _ (by norm_num)) (fun _ => exMultiHp_ok) 0 exSafeOps
    exSafeOps_ok st h op ho ho'⟩

/-- `max_points = 3`; the schedule runs backwards -/
noncomputable def exSafeCtx : SparseGp.Ctx := ⟨3, fun n => (List.range n).reverse, fun _ => Xt.nan, fun _ _ => 7⟩

noncomputable def exSafeSparse : BoParams XR (GpState exEnv) :=
  exSafeP (sparseOps exEnv (fun _ _ => (1, 2)) (fun _ _ _ => exSafeCtx) (fun _ _ _ => (fun _ _ => 3, exSafeCtx)) exHp)

theorem exHp_ok : HpOk exHp := fun A g hr hA _ =>
  C91_rprop_kernel_opt_never_fails exEnv_lawful (.seArd 0 (by norm_num)) (fun _ => by show (0:ℝ) < 0.01; norm_num) (fun _ => 300)
    (fun _ => by norm_num) (lit 0) (show le (XR.fin _) (XR.fin _) = true by rw [XR.le_fin]) _ _ A g hr hA

example : ∃ st, runOps exSafeSparse exSafeOps (newBo exSafeSparse 0 (Gp.new exEnv (0, 0))) = some st ∧ ∀ op, BoOpOk 2 2 op → runOp exSafeSparse op st ≠ .ub := by
  have hs : ∀ n, (exSafeCtx.sched n).Perm (List.range n) := fun n => List.reverse_perm _
  obtain ⟨st, h⟩ := C105_sparse_every_history_runs exEnv_lawful (din := 2) (dout := 2) (N := 3) (P := exSafeSparse) (by norm_num) (by norm_num)
    (fun _ _ _ => ⟨rfl, hs⟩) (fun _ _ _ => ⟨rfl, hs⟩) rfl (exSafeP_ok _ _ (by norm_num)) (fun _ => exHp_ok) 3 (List.mem_singleton.2 rfl) 0 (0, 0) exSafeOps
    (fun o ho => (exSafeOps_ok o ho).1) exSafeOps_fuel
  exact ⟨st, h, fun op ho => C105_sparse_no_undefined_behaviour exEnv_lawful (din := 2) (dout := 2) (N := 3) (P := exSafeSparse) (by norm_num) (by norm_num)
    (fun _ _ _ => ⟨rfl, hs⟩) (fun _ _ _ => ⟨rfl, hs⟩) rfl (exSafeP_ok _ _ (by norm_num)) (fun _ => exHp_ok) 0 (0, 0) exSafeOps
    (fun o ho => (exSafeOps_ok o ho).1) st h op ho⟩

/-! ### The announcement matters -/

/-- no initial point -/
noncomputable def exBareMulti (E : GpEnv) : BoParams XR (MultiGpState E) where
  bounded := true
  statsEnabled := false
  hpPeriod := -1
  ops := multiGpOps E (fun _ _ _ => (1, 2)) (fun _ _ _ => ⟨fun _ _ _ => 7, fun _ => (3, 4)⟩) (fun _ _ _ => ⟨fun _ _ _ => 7, fun _ => (3, 4)⟩) .none
  initPts := fun _ _ => some []
  acqui := fun _ _ _ => fun _ _ => (XR.fin 0, none)
  acquiOpt := fun _ _ _ _ => .point [XR.fin 1]
  startPt := fun _ _ => [XR.fin 0]
  stop := [maxIterations 1]
  stats := []

/-- the objective returns two values but announces one -/
noncomputable def exLiar (E : GpEnv) : StateFun XR (MultiGpState E) where
  dimIn := 1
  dimOut := 1
  call := fun _ _ => .ret [XR.fin 1, XR.fin 2]

/-- **C105**: the announcement matters for a `MultiGP`: an objective whose `dim_out()` is wrong makes the first `optimize` run into undefined
behaviour (a GP accepts it, C91). -/
theorem C105_multi_wrong_dim_out (E : GpEnv) : ObjectiveOk 1 2 (exLiar E) ∧
    optimize (exBareMulti E) (exLiar E) (fun v => v.headD (XR.fin 0)) true 5 (newBo (exBareMulti E) 0 (MultiGp.new E)) = .ub := by
  refine ⟨⟨rfl, fun tr x v h => by cases h; rfl⟩, ?_⟩
  have hadd : ∀ (j : MultiJunk) (u : Nat → ℝ × ℝ) (x : List ℝ), MultiGp.addSample j (MultiGp.newDims E u 1 1) x [1, 2] = none := by
    intro j u x
    simp [MultiGp.addSample, MultiGp.newDims, MultiGp.newModels]
  have c2 : (exBareMulti E).ops.addSample [XR.fin 1] [XR.fin 1, XR.fin 2] ((exBareMulti E).ops.fresh 1 1) = .ub := by
    show mgRes (MultiGp.addSample ⟨fun _ _ _ => 7, fun _ => (3, 4)⟩ (MultiGp.newDims E (fun _ => (1, 2)) 1 1) [1] [1, 2]) = _
    rw [hadd]; rfl
  have hn : isNanOrInf [XR.fin 1, XR.fin 2] = false := rfl
  have e1 : (exBareMulti E).initPts = fun _ _ => some [] := rfl
  have e2 : (exBareMulti E).acquiOpt = fun _ _ _ _ => .point [XR.fin 1] := rfl
  have e3 : (exBareMulti E).stop = [maxIterations 1] := rfl
  have e4 : (exBareMulti E).statsEnabled = false := rfl
  have e6 : (exLiar E).call = fun _ _ => .ret [XR.fin 1, XR.fin 2] := rfl
  have e7 : (exLiar E).dimIn = 1 := rfl
  have e8 : (exLiar E).dimOut = 1 := rfl
  unfold optimize boInit
  simp [e1, evalAll, evalAndAdd, e6, e7, e8, newBo, BoState.push, addNewSample, hn, Res.andThen, boModelInit, withModel, Res.bind, boLoop,
    boStop, chainCriteria, e3, maxIterations, boIteration, e2, updateStats, e4, boModelAdd, c2]

end examples

end Limbo
