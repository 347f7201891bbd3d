import Verif.Props.BoThrow
import Verif.Props.BoParego

/-!
C119 continued: `optimize` returns with a `MultiGP`, a `SparsifiedGP` and ParEGO.
-/

namespace Limbo

/-- With an objective that returns finite values and an inner optimizer that does not throw there is no exception. -/
theorem optimize_no_throw {M : Type} {P : BoParams XR M} {din dout : Nat} (hT : NoThrow P.ops)
    (hI : ∀ st, ∃ pts, P.initPts st din = some pts ∧ ∀ x ∈ pts, PointOk din x)
    (hO : ∀ st obj, P.acquiOpt st obj (P.startPt st din) P.bounded ≠ .threw ∧
      ∀ y, P.acquiOpt st obj (P.startPt st din) P.bounded = .point y → PointOk din y)
    {f : StateFun XR M} (hf : ObjectiveOk din dout f) (hfin : ∀ tr x, PointOk din x → ∃ v, f.call tr x = .ret v ∧ AllFinite v)
    (afun : List XR → XR) (reset : Bool) (n : Nat) (st : BoState XR M) (e : Exn) (st' : BoState XR M) :
    optimize P f afun reset n st ≠ .throw e st' := by
  intro h
  rcases C119_exceptions hT reset _ st st' e h with ⟨pre, x, r, -, hx, hr, ho⟩ | ⟨pre, g, it, obj, -, ht, -⟩
  · have hpt : PointOk din x := by
      rcases hx with ⟨s, pts, hp, hx⟩ | ⟨s, obj, hx⟩
      · rw [hf.1] at hp
        obtain ⟨pts', h1, h2⟩ := hI s
        rw [hp] at h1; cases h1
        exact h2 x hx
      · rw [hf.1] at hx; exact (hO s obj).2 x hx
    obtain ⟨v, hv, hfv⟩ := hfin pre x hpt
    rcases ho with ⟨rfl, -⟩ | ⟨w, rfl, hw, -⟩
    · rw [hv] at hr; cases hr
    · rw [hv] at hr; cases hr; exact hw hfv
  · rw [hf.1] at ht; exact (hO _ _).1 ht

section

variable {E : GpEnv} {u : Nat → Nat → Nat → ℝ × ℝ} {junkC : List (List ℝ) → List (List ℝ) → MultiGpState E → MultiJunk}
  {junkA : List ℝ → List ℝ → MultiGpState E → MultiJunk} {hp : MultiHp E} {P : BoParams XR (MultiGpState E)} {din dout : Nat}

theorem multi_noThrow (hP : P.ops = multiGpOps E u junkC junkA hp) : NoThrow P.ops := by
  have h : ∀ (o : Option (MultiGpState E)) (e : Exn) (s : MultiGpState E), mgRes o ≠ .throw e s := by intro o e s; cases o <;> simp [mgRes]
  rw [hP]
  exact ⟨fun _ _ _ _ _ => h _ _ _, fun _ _ _ _ _ => h _ _ _, fun _ _ _ => h _ _ _⟩

/-- **C119** (with a `MultiGP`): if the objective returns finite values on points of the right dimension and the optimizer of the acquisition
function does not throw, then `optimize`, after any history, returns normally — with the model fitted to all the data. -/
theorem C119_multi_returns (hE : LawfulEnv E) (hP : P.ops = multiGpOps E u junkC junkA hp) (hC : ComponentsFor (MultiGpReady din dout) P din dout)
    (hhp : 0 < P.hpPeriod → MultiHpOk hp)
    (hO : ∀ st obj, P.acquiOpt st obj (P.startPt st din) P.bounded ≠ .threw ∧
      ∀ y, P.acquiOpt st obj (P.startPt st din) P.bounded = .point y → PointOk din y)
    (N : Int) (hN : maxIterations N ∈ P.stop) (c : Int) (ops : List (BoOp XR (MultiGpState E)))
    (hops : ∀ o ∈ ops, BoOpOk din dout o ∧ AnnouncesOutputs dout o) (st : BoState XR (MultiGpState E))
    (h : runOps P ops (newBo P c (MultiGp.new E)) = some st) (f : StateFun XR (MultiGpState E)) (hf : ObjectiveOk din dout f) (hf' : f.dimOut = dout)
    (hfin : ∀ tr x, PointOk din x → ∃ v, f.call tr x = .ret v ∧ AllFinite v)
    (afun : List XR → XR) (reset : Bool) (fuel : Nat) (hfuel : N < fuel) :
    ∃ st', optimize P f afun reset (fuel + 1) st = .ok st' ∧ MultiGpHolds st'.model (st'.samples.zip st'.observations) := by
  rcases C105_multi_optimize_ends hE hP hC hhp N hN c ops hops st h f hf hf' afun reset fuel hfuel with h | ⟨e, st', h⟩
  · exact h
  · exact absurd h (optimize_no_throw (multi_noThrow hP) hC.init hO hf hfin afun reset _ st e st')

end

section

variable {E : GpEnv} {u : Nat → Nat → ℝ × ℝ} {N : Int} {K : List (List ℝ) → List (List ℝ) → GpState E → SparseGp.Ctx}
  {KA : List ℝ → List ℝ → GpState E → (Nat → Nat → ℝ) × SparseGp.Ctx} {hp : HpFunctor E} {P : BoParams XR (GpState E)} {din dout : Nat}

theorem sparse_noThrow (hP : P.ops = sparseOps E u K KA hp) : NoThrow P.ops := by
  rw [hP]
  exact ⟨fun _ _ _ _ _ h => gpRes_throw h, fun _ _ _ _ _ h => gpRes_throw h, fun _ _ _ h => gpRes_throw h⟩

/-- **C119** (with a `SparsifiedGP`): the same, with the model fitted to the part of the data it keeps (as in C102). -/
theorem C119_sparse_returns (hE : LawfulEnv E) (hd : din < 2 ^ 31) (hN : (din : Int) ≤ N)
    (hK : ∀ xs ys g, (K xs ys g).maxPoints = N ∧ ∀ n, ((K xs ys g).sched n).Perm (List.range n))
    (hKA : ∀ x y g, (KA x y g).2.maxPoints = N ∧ ∀ n, ((KA x y g).2.sched n).Perm (List.range n))
    (hP : P.ops = sparseOps E u K KA hp) (hC : ComponentsFor (FitsPart N.toNat din) P din dout) (hhp : 0 < P.hpPeriod → HpOk hp)
    (hO : ∀ st obj, P.acquiOpt st obj (P.startPt st din) P.bounded ≠ .threw ∧
      ∀ y, P.acquiOpt st obj (P.startPt st din) P.bounded = .point y → PointOk din y)
    (L : Int) (hL : maxIterations L ∈ P.stop) (c : Int) (u0 : ℝ × ℝ)
    (ops : List (BoOp XR (GpState E))) (hops : ∀ o ∈ ops, BoOpOk din dout o) (st : BoState XR (GpState E))
    (h : runOps P ops (newBo P c (Gp.new E u0)) = some st) (f : StateFun XR (GpState E)) (hf : ObjectiveOk din dout f)
    (hfin : ∀ tr x, PointOk din x → ∃ v, f.call tr x = .ret v ∧ AllFinite v)
    (afun : List XR → XR) (reset : Bool) (fuel : Nat) (hfuel : L < fuel) :
    ∃ st', optimize P f afun reset (fuel + 1) st = .ok st' ∧ FitsPart N.toNat din st'.model (st'.samples.zip st'.observations) := by
  rcases C105_sparse_optimize_ends hE hd hN hK hKA hP hC hhp L hL c u0 ops hops st h f hf afun reset fuel hfuel with h | ⟨e, st', h⟩
  · exact h
  · exact absurd h (optimize_no_throw (sparse_noThrow hP) hC.init hO hf hfin afun reset _ st e st')

end

section

variable {E : GpEnv} {rho : ℝ} {u : Nat → Nat → ℝ × ℝ} {ctxC : List (List ℝ) → List (List ℝ) → Parego.St E → Parego.Ctx}
  {ctxA : List ℝ → List ℝ → Parego.St E → Parego.Ctx} {hp : HpFunctor E} {P : BoParams XR (Parego.St E)} {din dout : Nat}

theorem parego_noThrow (hP : P.ops = paregoOps E rho u ctxC ctxA hp) : NoThrow P.ops := by
  have h : ∀ (o : Option (Parego.St E)) (e : Exn) (s : Parego.St E), peRes o ≠ .throw e s := by intro o e s; cases o <;> simp [peRes]
  rw [hP]
  exact ⟨fun _ _ _ _ _ => h _ _ _, fun _ _ _ _ _ => h _ _ _, fun _ _ _ => h _ _ _⟩

/-- **C119** (with ParEGO): the same, with the underlying GP fitted to the scalarised data. -/
theorem C119_parego_returns (hE : LawfulEnv E) (hC : ∀ xs ys m, GoodDraws (ctxC xs ys m)) (hA : ∀ x y m, GoodDraws (ctxA x y m))
    (hP : P.ops = paregoOps E rho u ctxC ctxA hp)
    (hhp : 0 < P.hpPeriod → ∀ A g, GpReach E A g → A.UpToDate → A.i = true → hp.run g ≠ none)
    (hK : ComponentsFor (ParegoFits rho) P din dout)
    (hO : ∀ st obj, P.acquiOpt st obj (P.startPt st din) P.bounded ≠ .threw ∧
      ∀ y, P.acquiOpt st obj (P.startPt st din) P.bounded = .point y → PointOk din y)
    (c : Int) (u0 : ℝ × ℝ) (n : Nat) (N : Int) (hN : maxIterations N ∈ P.stop)
    (ops : List (BoOp XR (Parego.St E))) (hops : ∀ o ∈ ops, BoOpOk din dout o)
    (st : BoState XR (Parego.St E)) (h : runOps P ops (newBo P c (Parego.new E u0 n)) = some st)
    (f : StateFun XR (Parego.St E)) (hf : ObjectiveOk din dout f) (hfin : ∀ tr x, PointOk din x → ∃ v, f.call tr x = .ret v ∧ AllFinite v)
    (afun : List XR → XR) (reset : Bool) (fuel : Nat) (hfuel : N < fuel) :
    ∃ st', optimize P f afun reset (fuel + 1) st = .ok st' ∧ ParegoFits rho st'.model (st'.samples.zip st'.observations) := by
  rcases C114_optimize_ends hE hC hA hP hhp hK c u0 n N hN ops hops st h f hf afun reset fuel hfuel with h | ⟨e, st', h⟩
  · exact h
  · exact absurd h (optimize_no_throw (parego_noThrow hP) hK.init hO hf hfin afun reset _ st e st')

end

/-! Concrete cases: two inputs, two outputs, hyper-parameters optimized every second iteration. -/

section

variable {M : Type}

/-- as `exSafeP`, with an inner optimizer that never throws -/
noncomputable def exSteadyP (ops : ModelOps XR M) : BoParams XR M :=
  { exSafeP ops with acquiOpt := fun st _ x _ => .point (x.map fun _ => XR.fin (1 / (st.samples.length + 1))) }

theorem exSteadyP_opt (ops : ModelOps XR M) (st : BoState XR M) (obj : ObjFn XR) :
    (exSteadyP ops).acquiOpt st obj ((exSteadyP ops).startPt st 2) (exSteadyP ops).bounded ≠ .threw ∧
      ∀ y, (exSteadyP ops).acquiOpt st obj ((exSteadyP ops).startPt st 2) (exSteadyP ops).bounded = .point y → PointOk 2 y := by
  refine ⟨by simp [exSteadyP], fun y hy => ?_⟩
  simp only [exSteadyP, OptRes.point.injEq] at hy
  subst hy
  refine ⟨?_, by simp [exSafeP]⟩
  intro y hy
  obtain ⟨_, -, rfl⟩ := List.mem_map.1 hy
  exact ⟨_, rfl⟩

theorem exSteadyP_ok (F : M → List (List XR × List XR) → Prop) (ops : ModelOps XR M) {dout : Nat} (h : 0 < dout) : ComponentsFor F (exSteadyP ops) 2 dout :=
  let H := exSafeP_ok F ops h
  ⟨H.din_pos, H.dout_pos, H.init, fun st _ _ => Or.inl ⟨_, rfl, (exSteadyP_opt ops st fun _ _ => (XR.fin 0, none)).2 _ rfl⟩, H.stop, H.stats⟩

/-- two objectives: the first coordinate, and the number of calls so far -/
noncomputable def exSteadyF : StateFun XR M where
  dimIn := 2
  dimOut := 2
  call := fun tr x => .ret [x.headD (XR.fin 0), XR.fin (callPts tr).length]

theorem exSteadyF_ok : ObjectiveOk 2 2 (exSteadyF : StateFun XR M) :=
  ⟨rfl, fun tr x v h => by simp only [exSteadyF, CallRes.ret.injEq] at h; rw [← h]; rfl⟩

theorem exSteadyF_fin (tr : List (Event XR M)) (x : List XR) (hx : PointOk 2 x) : ∃ v, (exSteadyF : StateFun XR M).call tr x = .ret v ∧ AllFinite v := by
  refine ⟨_, rfl, fun y hy => ?_⟩
  obtain ⟨hx1, hx2⟩ := hx
  obtain ⟨a, b, rfl⟩ := List.length_eq_two.1 hx2
  obtain ⟨t, rfl⟩ := hx1 a (by simp)
  simp only [List.headD_cons, List.mem_cons, List.not_mem_nil, or_false] at hy
  rcases hy with rfl | rfl <;> exact ⟨rfl, rfl⟩

end

noncomputable def exSteadyMulti : BoParams XR (MultiGpState exEnv) :=
  exSteadyP (multiGpOps exEnv (fun _ _ _ => (1, 2)) (fun _ _ _ => ⟨fun _ _ _ => 7, fun _ => (3, 4)⟩) (fun _ _ _ => ⟨fun _ _ _ => 7, fun _ => (3, 4)⟩) exMultiHp)

example : ∃ st, optimize exSteadyMulti exSteadyF (fun v => v.headD (XR.fin 0)) true 10 (newBo exSteadyMulti 0 (MultiGp.new exEnv)) = .ok st ∧
    MultiGpHolds st.model (st.samples.zip st.observations) :=
  C119_multi_returns (P := exSteadyMulti) exEnv_lawful rfl (exSteadyP_ok _ _ (by norm_num)) (fun _ => exMultiHp_ok) (exSteadyP_opt _) 3 (List.mem_singleton.2 rfl) 0
    [] (by simp) _ rfl exSteadyF exSteadyF_ok rfl exSteadyF_fin _ true 9 (by norm_num)

noncomputable def exSteadySparse : BoParams XR (GpState exEnv) :=
  exSteadyP (sparseOps exEnv (fun _ _ => (1, 2)) (fun _ _ _ => exSafeCtx) (fun _ _ _ => (fun _ _ => 3, exSafeCtx)) exHp)

example : ∃ st, optimize exSteadySparse exSteadyF (fun v => v.headD (XR.fin 0)) true 10 (newBo exSteadySparse 0 (Gp.new exEnv (0, 0))) = .ok st ∧
    FitsPart 3 2 st.model (st.samples.zip st.observations) :=
  have hs : ∀ n, (exSafeCtx.sched n).Perm (List.range n) := fun n => List.reverse_perm _
  C119_sparse_returns (P := exSteadySparse) (N := 3) exEnv_lawful (by norm_num) (by norm_num) (fun _ _ _ => ⟨rfl, hs⟩) (fun _ _ _ => ⟨rfl, hs⟩) rfl
    (exSteadyP_ok _ _ (by norm_num)) (fun _ => exHp_ok) (exSteadyP_opt _) 3 (List.mem_singleton.2 rfl) 0 (0, 0)
    [] (by simp) _ rfl exSteadyF exSteadyF_ok exSteadyF_fin _ true 9 (by norm_num)

noncomputable def exSteadyParego : BoParams XR (Parego.St exEnvConst) :=
  { exSteadyP (paregoOps exEnvConst 0.05 (fun _ _ => (1, 2)) (fun _ _ _ => exParegoCtx) (fun _ _ _ => exParegoCtx) .none) with hpPeriod := -1 }

example : ∃ st, optimize exSteadyParego exSteadyF (fun v => v.headD (XR.fin 0)) true 10 (newBo exSteadyParego 0 (Parego.new exEnvConst (0, 0) 0)) = .ok st ∧
    ParegoFits 0.05 st.model (st.samples.zip st.observations) := by
  have H := exSteadyP_ok (ParegoFits 0.05) (paregoOps exEnvConst 0.05 (fun _ _ => (1, 2)) (fun _ _ _ => exParegoCtx) (fun _ _ _ => exParegoCtx) .none) (dout := 2) (by norm_num)
  exact C119_parego_returns (P := exSteadyParego) exEnvConst_lawful (fun _ _ _ => exParegoCtx_good) (fun _ _ _ => exParegoCtx_good) rfl (fun h => absurd h (by decide))
    ⟨H.din_pos, H.dout_pos, H.init, H.inner, H.stop, H.stats⟩ (exSteadyP_opt exSteadyParego.ops) 0 (0, 0) 0 3 (List.mem_singleton.2 rfl)
    [] (by simp) _ rfl exSteadyF exSteadyF_ok exSteadyF_fin _ true 9 (by norm_num)

end Limbo
