import Verif.Lemmas.BoStat
import Verif.Spec.BoThrow
import Verif.Props.BoAcqui

/-!
C119: where the exceptions thrown by `optimize` come from, and when `optimize` returns.
-/

namespace Limbo

section

variable {α M : Type} [Scalar α] {P : BoParams α M} {f : StateFun α M} {afun : List α → α}

theorem evalAndAdd_from {x : List α} {st st' : BoState α M} {e : Exn} (hx : Proposed P f x) (h : evalAndAdd f x st = .throw e st') : FromOutside P f e st' := by
  unfold evalAndAdd at h
  simp only at h
  split at h
  · next hr => cases h; exact Or.inl ⟨st.trace, x, _, rfl, hx, rfl, Or.inl ⟨hr, rfl⟩⟩
  · next v hr =>
    unfold addNewSample at h
    split at h
    · next hb =>
      cases h
      refine Or.inl ⟨st.trace, x, _, rfl, hx, rfl, Or.inr ⟨v, hr, fun hf => ?_, rfl⟩⟩
      rw [(isNanOrInf_false v).2 hf] at hb
      exact absurd hb (by simp)
    · cases h

theorem evalAll_from : ∀ {xs : List (List α)} {st st' : BoState α M} {e : Exn}, (∀ x ∈ xs, Proposed P f x) → evalAll f xs st = .throw e st' → FromOutside P f e st' := by
  intro xs
  induction xs with
  | nil => intro st st' e _ h; cases h
  | cons x xs ih =>
    intro st st' e hx h
    rcases Res.andThen_throw h with h | ⟨s, -, h⟩
    · exact evalAndAdd_from (hx x (by simp)) h
    · exact ih (fun y hy => hx y (by simp [hy])) h

theorem withModel_no {st st' : BoState α M} {r : Res M} {e : Exn} (hr : ∀ e m, r ≠ .throw e m) : withModel st r ≠ .throw e st' := by
  cases r <;> simp_all [withModel, Res.bind]

theorem boIteration_from (hN : NoThrow P.ops) {st st' : BoState α M} {e : Exn} (h : boIteration P f afun st = .throw e st') : FromOutside P f e st' := by
  unfold boIteration at h
  simp only at h
  split at h
  · cases h
  · next hr => cases h; exact Or.inr ⟨st.trace, _, _, _, rfl, hr, rfl⟩
  · next x hr =>
    rcases Res.andThen_throw h with h | ⟨s, -, h⟩
    · exact evalAndAdd_from (Or.inr ⟨_, _, hr⟩) h
    rcases Res.andThen_throw h with h | ⟨s, -, h⟩
    · unfold updateStats at h
      simp only at h
      split at h
      · split at h <;> cases h
      · cases h
    rcases Res.andThen_throw h with h | ⟨s, -, h⟩
    · unfold boModelAdd at h
      split at h
      · exact absurd h (withModel_no (hN.addSample _ _ _))
      · cases h
    rcases Res.andThen_throw h with h | ⟨s, -, h⟩
    · unfold boHp at h
      split at h
      · exact absurd h (withModel_no (hN.optHp _))
      · cases h
    · cases h

theorem boLoop_from (hN : NoThrow P.ops) : ∀ {n : Nat} {st st' : BoState α M} {e : Exn}, boLoop P f afun n st = .throw e st' → FromOutside P f e st' := by
  intro n
  induction n with
  | zero => intro st st' e h; cases h
  | succ n ih =>
    intro st st' e h
    unfold boLoop at h
    split at h
    · cases h
    · cases h
    · rcases Res.andThen_throw h with h | ⟨s, -, h⟩
      · exact boIteration_from hN h
      · exact ih h

/-- **C119**: with a model whose operations do not throw, every exception out of `optimize` comes from the objective (its own exception, or
`EvaluationError` for a value that is not finite) or from the optimizer of the acquisition function, and nothing is done after it.  The
object still holds exactly the finite evaluations made before (`C01_paired_after_exception`). -/
theorem C119_exceptions (hN : NoThrow P.ops) (reset : Bool) (n : Nat) (st st' : BoState α M) (e : Exn)
    (h : optimize P f afun reset n st = .throw e st') : FromOutside P f e st' := by
  unfold optimize at h
  simp only at h
  rcases Res.andThen_throw h with h | ⟨s, -, h⟩
  · unfold boInit at h
    simp only at h
    generalize (if reset = true then _ else _ : BoState α M) = q at h
    split at h
    · split at h
      · next pts hp => exact evalAll_from (fun x hx => Or.inl ⟨_, pts, hp, hx⟩) h
      · cases h
    · cases h
  rcases Res.andThen_throw h with h | ⟨s, -, h⟩
  · unfold boModelInit at h
    split at h
    · cases h
    · exact absurd h (withModel_no (hN.compute _ _ _))
  · exact boLoop_from hN h

/-- the hypotheses are met: the objective of `Props/Bo.lean` gives a NaN at its fourth call -/
example : NoThrow exP.ops ∧ (match optimize exP exF firstElem true 10 (newBo exP 0 []) with
    | .throw e st => (e == .evaluationError, (callPts st.trace).length, st.samples.length)
    | _ => (false, 0, 0)) = (true, 4, 3) :=
  ⟨⟨by rintro _ _ _ _ _ ⟨⟩, by rintro _ _ _ _ _ ⟨⟩, by rintro _ _ _ ⟨⟩⟩, by decide +kernel⟩

/-- A run that returned with `MaxIterations` as its only stopping criterion took exactly that many decisions. -/
theorem C119_decisions (N : Int) (hS : P.stop = [maxIterations N]) (reset : Bool) (n : Nat) (st st' : BoState α M)
    (h : optimize P f afun reset n st = .ok st') : ∃ seg, st'.trace = st.trace ++ .start reset :: seg ∧ (acquiCount seg : Int) = max N 0 := by
  obtain ⟨pts, vs0, m0, k, -, -, hlen, -, -, hl⟩ := optimize_ok h
  obtain ⟨seg, xs, vs, hs⟩ := hl.sum
  have hn := hl.count_maxIterations hS
  have hc : (initState reset st).currentIteration = 0 := by cases reset <;> rfl
  have htr : (initState reset st).trace = st.trace ++ [.start reset] := by cases reset <;> rfl
  simp only [hc] at hn
  refine ⟨retEvents pts vs0 ++ seg, by rw [hs.trace]; simp [htr], ?_⟩
  rw [acquiCount_append, hs.acq, (retEvents_spec pts vs0 hlen.symm).2.2.1]
  push_cast; omega

end

variable {E : GpEnv} {P : BoParams XR (GpState E)} {u : Nat → Nat → ℝ × ℝ} {junkC : List (List ℝ) → List (List ℝ) → GpState E → Nat → Nat → ℝ}
  {junkA : List ℝ → List ℝ → GpState E → Nat → Nat → ℝ} {hp : HpFunctor E}

theorem gp_noThrow (hP : P.ops = gpOps E u junkC junkA hp) : NoThrow P.ops := by
  rw [hP]
  exact ⟨fun _ _ _ _ _ h => gpRes_throw h, fun _ _ _ _ _ h => gpRes_throw h, fun _ _ _ h => gpRes_throw h⟩

/-- **C119** (with a Gaussian process): if the objective returns finite values on points of the right dimension and the optimizer of the
acquisition function does not throw, then `optimize`, after any history, returns normally — with the model fitted to all the data. -/
theorem C119_gp_returns (hE : LawfulEnv E) (hP : P.ops = gpOps E u junkC junkA hp) {din dout : Nat} (hC : ComponentsOk P hp din dout)
    (hO : ∀ st obj, P.acquiOpt st obj (P.startPt st din) P.bounded ≠ .threw ∧
      ∀ y, P.acquiOpt st obj (P.startPt st din) P.bounded = .point y → PointOk din y)
    (N : Int) (hN : maxIterations N ∈ P.stop) (c : Int) (u0 : ℝ × ℝ) (ops : List (BoOp XR (GpState E))) (hops : ∀ o ∈ ops, BoOpOk din dout o)
    (st : BoState XR (GpState E)) (h : runOps P ops (newBo P c (Gp.new E u0)) = some st) (f : StateFun XR (GpState E))
    (hf : ObjectiveOk din dout f) (hfin : ∀ tr x, PointOk din x → ∃ v, f.call tr x = .ret v ∧ AllFinite v)
    (afun : List XR → XR) (reset : Bool) (fuel : Nat) (hfuel : N < fuel) :
    ∃ st', optimize P f afun reset (fuel + 1) st = .ok st' ∧ GpFits st'.model (st'.samples.zip st'.observations) := by
  rcases C91_optimize_ends hE hP hC N hN c u0 ops hops st h f hf afun reset fuel hfuel with h | ⟨e, st', h⟩
  · exact h
  exfalso
  rcases C119_exceptions (gp_noThrow hP) reset _ st st' e h with ⟨pre, x, r, -, hx, hr, ho⟩ | ⟨pre, g, it, obj, -, ht, -⟩
  · have hpt : PointOk din x := by
      rcases hx with ⟨s, pts, hp, hx⟩ | ⟨s, obj, hx⟩
      · rw [hf.1] at hp
        obtain ⟨pts', h1, h2⟩ := hC.init s
        rw [hp] at h1; cases h1
        exact h2 x hx
      · rw [hf.1] at hx; exact (hO s obj).2 x hx
    obtain ⟨v, hv, hfv⟩ := hfin pre x hpt
    rcases ho with ⟨rfl, -⟩ | ⟨w, rfl, hw, -⟩
    · rw [hv] at hr; cases hr
    · rw [hv] at hr; cases hr; exact hw hfv
  · rw [hf.1] at ht; exact (hO _ _).1 ht

/-- Grid search meets the hypothesis of `C119_gp_returns` on the optimizer of the acquisition function, whatever it is given. -/
theorem C119_grid_search {b fuel d : Nat} (hb : 0 < b) (hfuel : b + 2 ≤ fuel) (hd : 0 < d) (obj : ObjFn XR) (x0 : List XR) (hx : x0.length = d) :
    (gridSearch b fuel).toRes obj x0 true ≠ .threw ∧ ∀ y, (gridSearch b fuel).toRes obj x0 true = .point y → PointOk d y := by
  simp only [Optz.toRes]
  split
  · next y hy =>
    refine ⟨by simp, fun z hz => ?_⟩
    cases hz
    obtain ⟨h1, -⟩ := gridSearch_some_optimum hb hfuel (by rw [hx]; exact hd) hy
    rw [hx] at h1
    obtain ⟨v, rfl, hv⟩ := onGrid_iff.1 h1
    refine ⟨fun w hw => ?_, by simpa using hv.1⟩
    obtain ⟨a, -, rfl⟩ := List.mem_map.1 hw
    exact ⟨a, rfl⟩
  · exact ⟨by simp, fun z hz => by cases hz⟩

/-! A concrete run: EI on a grid of 5 × 5 points, two initial points and three iterations. -/

/-- the objective: the first coordinate -/
noncomputable def exFirst : StateFun XR (GpState exEnv) where
  dimIn := 2
  dimOut := 1
  call := fun _ x => .ret [x.headD (XR.fin 0)]

theorem exFirst_run : ∃ st, optimize exEiP exFirst (fun v => v.headD (XR.fin 0)) true 10 (newBo exEiP 0 (Gp.new exEnv (0, 0))) = .ok st := by
  obtain ⟨st, h, -⟩ := C119_gp_returns (P := exEiP) exEnv_lawful rfl exEiP_ok (fun st obj => C119_grid_search (by norm_num) (by norm_num) (by norm_num) obj _
    (List.length_replicate ..)) 3 (List.mem_singleton.2 rfl) 0 (0, 0) [] (by simp) _ rfl exFirst
    ⟨rfl, fun tr x v h => by simp only [exFirst, CallRes.ret.injEq] at h; rw [← h]; rfl⟩
    (fun tr x hx => ⟨_, rfl, fun y hy => by
      obtain ⟨hx1, hx2⟩ := hx
      obtain ⟨a, b, rfl⟩ := List.length_eq_two.1 hx2
      obtain ⟨t, rfl⟩ := hx1 a (by simp)
      simp only [List.headD_cons, List.mem_singleton] at hy
      subst hy; exact ⟨rfl, rfl⟩⟩)
    (fun v => v.headD (XR.fin 0)) true 9 (by norm_num)
  exact ⟨st, h⟩

theorem acquiCount_pos {α M : Type} {l : List (Event α M)} (h : 0 < acquiCount l) : ∃ pre g it rest, l = pre ++ .acqui g it :: rest := by
  induction l with
  | nil => simp [acquiCount] at h
  | cons e l ih =>
    cases e with
    | acqui g it => exact ⟨[], g, it, l, rfl⟩
    | _ =>
      obtain ⟨pre, g, it, rest, rfl⟩ := ih (by simpa [acquiCount] using h)
      exact ⟨_ :: pre, g, it, rest, rfl⟩

/-- The hypotheses of `C93_ei` (and of `C90_predictions_from_all_data`) are met by a run that takes decisions. -/
example : ∃ st pre g it rest, runOps exEiP [.optimize exFirst (fun v => v.headD (XR.fin 0)) true 10] (newBo exEiP 0 (Gp.new exEnv (0, 0))) = some st ∧
    st.trace = pre ++ .acqui g it :: rest ∧ GpFits g (expect pre) := by
  obtain ⟨st, h⟩ := exFirst_run
  obtain ⟨seg, h1, h2⟩ := C119_decisions (P := exEiP) 3 rfl true 10 _ st h
  obtain ⟨pre, g, it, rest, h3⟩ := acquiCount_pos (l := seg) (by omega)
  have hr : runOps exEiP [.optimize exFirst (fun v => v.headD (XR.fin 0)) true 10] (newBo exEiP 0 (Gp.new exEnv (0, 0))) = some st := by
    simp only [runOps, runOp, h]
  rw [h3] at h1
  refine ⟨st, _ ++ .start true :: pre, g, it, rest, hr, by rw [h1, List.append_assoc]; rfl, ?_⟩
  exact (C90_predictions_from_all_data exEnv_lawful rfl 0 (0, 0) _ st hr _ rest g it).1 (by rw [h1, List.append_assoc]; rfl)

end Limbo
