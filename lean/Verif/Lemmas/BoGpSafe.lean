import Verif.Lemmas.BoSafe

/-! `BOptimizer` with a GP does not run into undefined behaviour. -/

namespace Limbo

open Gp

variable {E : GpEnv} {din dout : Nat} {P : BoParams XR (GpState E)}

theorem ComponentsOk.parts {hp : HpFunctor E} (h : ComponentsOk P hp din dout) : PartsOk P hp din dout :=
  ⟨h.din_pos, h.dout_pos, h.init, h.stop, h.stats, h.hp⟩

theorem ComponentsOk.comps {hp : HpFunctor E} (h : ComponentsOk P hp din dout) : ComponentsFor GpFits P din dout :=
  ⟨h.din_pos, h.dout_pos, h.init, h.inner, h.stop, h.stats⟩

theorem PartsOk.parts {hp : HpFunctor E} (h : PartsOk P hp din dout) : PartsFor GpFits P din dout :=
  ⟨h.din_pos, h.dout_pos, h.init, h.stop, h.stats⟩

theorem freshOk_true (op : BoOp XR (GpState E)) : FreshOk (fun _ => True) P op := by cases op <;> trivial

/-- a GP does its job -/
theorem gpSafe {u : Nat → Nat → ℝ × ℝ} {junkC : List (List ℝ) → List (List ℝ) → GpState E → Nat → Nat → ℝ}
    {junkA : List ℝ → List ℝ → GpState E → Nat → Nat → ℝ} {hp : HpFunctor E} (hE : LawfulEnv E) (hP : P.ops = gpOps E u junkC junkA hp)
    (hhp : 0 < P.hpPeriod → ∀ A g, GpReach E A g → A.UpToDate → A.i = true → hp.run g ≠ none) : SafeModel GpRel GpFits (fun _ => True) P din dout where
  law := by rw [hP]; exact gpOps_lawful u junkC junkA hp
  fits h _ := h.fits hE
  compute {m d} hR {xs ys} hds := by
    obtain ⟨xs0, ys0, hl0, -, hr0⟩ := id hR
    obtain ⟨m', hmm, -⟩ := track_compute hE (junkC xs ys m) (hr0.tracks hE) hds true
    refine ⟨m', ?_, trivial⟩
    rw [hP]
    show gpRes _ = _
    rw [realsL?_map, Option.bind_some, realsL?_map, Option.bind_some, hmm]; rfl
  add {m xs ys} hR _ hl {x y} hds := by
    obtain ⟨xs0, ys0, hl0, he, hr0⟩ := id hR
    obtain ⟨rfl, rfl⟩ := finPairs_inj hl hl0 he
    obtain ⟨m', hm, -⟩ := track_add hE (junkA x y m) (hr0.tracks hE) hds
    refine ⟨m', ?_, trivial⟩
    rw [hP]
    show gpRes _ = _
    rw [reals?_map, Option.bind_some, reals?_map, Option.bind_some, hm]; rfl
  hp hper {m d} hR hne _ := by
    obtain ⟨xs3, ys3, hl3, he3, hr3⟩ := hR
    obtain ⟨g, hg⟩ := Option.ne_none_iff_exists'.1 (hhp hper _ _ hr3 (by
      refine ⟨?_, rfl, rfl, rfl⟩
      rintro rfl
      exact hne (by rw [he3]; simp [finPairs])) rfl)
    exact ⟨g, by rw [hP]; show gpRes _ = _; rw [hg]; rfl, trivial⟩

theorem boIteration_safe {u : Nat → Nat → ℝ × ℝ} {junkC : List (List ℝ) → List (List ℝ) → GpState E → Nat → Nat → ℝ}
    {junkA : List ℝ → List ℝ → GpState E → Nat → Nat → ℝ} {hp : HpFunctor E} (hE : LawfulEnv E) (hP : P.ops = gpOps E u junkC junkA hp)
    (hC : PartsOk P hp din dout) {f : StateFun XR (GpState E)} (hf : ObjectiveOk din dout f) (afun : List XR → XR) (st : BoState XR (GpState E))
    (h : RelQ GpRel st) (hs : Shape P.stats.length din dout st)
    (hin : (∃ y, P.acquiOpt (st.push (.acqui st.model st.currentIteration)) (fun x g => P.acqui (st.push (.acqui st.model st.currentIteration)).model (st.push (.acqui st.model st.currentIteration)).currentIteration afun x g)
        (P.startPt (st.push (.acqui st.model st.currentIteration)) din) P.bounded = .point y ∧ PointOk din y) ∨
      P.acquiOpt (st.push (.acqui st.model st.currentIteration)) (fun x g => P.acqui (st.push (.acqui st.model st.currentIteration)).model (st.push (.acqui st.model st.currentIteration)).currentIteration afun x g)
        (P.startPt (st.push (.acqui st.model st.currentIteration)) din) P.bounded = .threw) :
    (boIteration P f afun st).Safe (Shape P.stats.length din dout) (Shape P.stats.length din dout) :=
  (boIteration_safeFor (gpSafe hE hP hC.hp) hC.parts hf afun st h hs.g hin).mono (fun _ h => h.shape) (fun _ h => h.shape)

theorem boStop_some {hp : HpFunctor E} (hE : LawfulEnv E) (hC : PartsOk P hp din dout) (afun : List XR → XR) (st : BoState XR (GpState E))
    (h : RelQ GpRel st) : boStop P afun st ≠ none :=
  boStop_someFor (F := GpFits) (G := fun _ => True) (fun h _ => h.fits hE) hC.parts afun st h trivial

theorem boLoop_safe {u : Nat → Nat → ℝ × ℝ} {junkC : List (List ℝ) → List (List ℝ) → GpState E → Nat → Nat → ℝ}
    {junkA : List ℝ → List ℝ → GpState E → Nat → Nat → ℝ} {hp : HpFunctor E} (hE : LawfulEnv E) (hP : P.ops = gpOps E u junkC junkA hp)
    (hC : ComponentsOk P hp din dout) {f : StateFun XR (GpState E)} (hf : ObjectiveOk din dout f) (afun : List XR → XR) : ∀ (fuel : Nat)
    (st : BoState XR (GpState E)), RelQ GpRel st → Shape P.stats.length din dout st →
    (boLoop P f afun fuel st).Safe (Shape P.stats.length din dout) (Shape P.stats.length din dout) :=
  fun fuel st h hs => (boLoop_safeFor (gpSafe hE hP hC.hp) hC.comps hf afun fuel st h hs.g).mono (fun _ h => h.shape) (fun _ h => h.shape)

theorem boInit_safe {hp : HpFunctor E} (hC : PartsOk P hp din dout) {f : StateFun XR (GpState E)} (hf : ObjectiveOk din dout f) (reset : Bool)
    (st : BoState XR (GpState E)) (hs : Shape P.stats.length din dout st) :
    (boInit P f reset (st.push (.start reset))).Safe (Shape P.stats.length din dout) (Shape P.stats.length din dout) :=
  (boInit_safeFor hC.parts hf reset st hs.g).mono (fun _ h => h.shape) (fun _ h => h.shape)

theorem boModelInit_safe {u : Nat → Nat → ℝ × ℝ} {junkC : List (List ℝ) → List (List ℝ) → GpState E → Nat → Nat → ℝ}
    {junkA : List ℝ → List ℝ → GpState E → Nat → Nat → ℝ} {hp : HpFunctor E} (hE : LawfulEnv E) (hP : P.ops = gpOps E u junkC junkA hp)
    (hC : PartsOk P hp din dout) {f : StateFun XR (GpState E)} (s1 : BoState XR (GpState E)) (h1 : RelT GpRel s1) (hs1 : Shape P.stats.length din dout s1) :
    (boModelInit P f s1).Safe (fun s => RelQ GpRel s ∧ Shape P.stats.length din dout s) (Shape P.stats.length din dout) :=
  (boModelInit_safeFor (gpSafe hE hP hC.hp) hC.parts (f := f) trivial s1 h1 hs1.g).mono (fun _ h => ⟨h.1, h.2.shape⟩) (fun _ h => h.shape)

theorem optimize_safe {u : Nat → Nat → ℝ × ℝ} {junkC : List (List ℝ) → List (List ℝ) → GpState E → Nat → Nat → ℝ}
    {junkA : List ℝ → List ℝ → GpState E → Nat → Nat → ℝ} {hp : HpFunctor E} (hE : LawfulEnv E) (hP : P.ops = gpOps E u junkC junkA hp)
    (hC : ComponentsOk P hp din dout) {f : StateFun XR (GpState E)} (hf : ObjectiveOk din dout f) (afun : List XR → XR) (reset : Bool) (fuel : Nat)
    (st : BoState XR (GpState E)) (h : RelT GpRel st) (hs : Shape P.stats.length din dout st) :
    (optimize P f afun reset fuel st).Safe (Shape P.stats.length din dout) (Shape P.stats.length din dout) :=
  (optimize_safeFor (gpSafe hE hP hC.hp) hC.comps hf trivial afun reset fuel st h hs.g).mono (fun _ h => h.shape) (fun _ h => h.shape)

theorem runOp_safe {u : Nat → Nat → ℝ × ℝ} {junkC : List (List ℝ) → List (List ℝ) → GpState E → Nat → Nat → ℝ}
    {junkA : List ℝ → List ℝ → GpState E → Nat → Nat → ℝ} {hp : HpFunctor E} (hE : LawfulEnv E) (hP : P.ops = gpOps E u junkC junkA hp)
    (hC : ComponentsOk P hp din dout) (op : BoOp XR (GpState E)) (hop : BoOpOk din dout op) (st : BoState XR (GpState E)) (h : RelT GpRel st)
    (hs : Shape P.stats.length din dout st) : (runOp P op st).Safe (Shape P.stats.length din dout) (Shape P.stats.length din dout) :=
  (runOp_safeFor (gpSafe hE hP hC.hp) hC.comps op hop (freshOk_true op) st h hs.g).mono (fun _ h => h.shape) (fun _ h => h.shape)

theorem runOps_safe {u : Nat → Nat → ℝ × ℝ} {junkC : List (List ℝ) → List (List ℝ) → GpState E → Nat → Nat → ℝ}
    {junkA : List ℝ → List ℝ → GpState E → Nat → Nat → ℝ} {hp : HpFunctor E} (hE : LawfulEnv E) (hP : P.ops = gpOps E u junkC junkA hp)
    (hC : ComponentsOk P hp din dout) : ∀ (ops : List (BoOp XR (GpState E))), (∀ o ∈ ops, BoOpOk din dout o) → ∀ (st st' : BoState XR (GpState E)),
    RelT GpRel st → Shape P.stats.length din dout st → runOps P ops st = some st' → RelT GpRel st' ∧ Shape P.stats.length din dout st' :=
  fun ops ho st st' h hs he => (runOps_safeFor (gpSafe hE hP hC.hp) hC.comps ops (fun o hm => ⟨ho o hm, freshOk_true o⟩) st st' h hs.g he).imp id fun h => h.shape

end Limbo
