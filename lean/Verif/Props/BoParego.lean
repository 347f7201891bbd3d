import Verif.Spec.BoParego
import Verif.Lemmas.Parego
import Verif.Lemmas.BoGpSafe
import Verif.Props.BoSafe
import Verif.Props.BoAcqui

/-!
**C114**: ParEGO end to end: `BOptimizer` with `GPParego`.
-/

namespace Limbo

open Gp

variable {E : GpEnv} {rho : ℝ} {u : Nat → Nat → ℝ × ℝ} {ctxC : List (List ℝ) → List (List ℝ) → Parego.St E → Parego.Ctx}
  {ctxA : List ℝ → List ℝ → Parego.St E → Parego.Ctx} {hp : HpFunctor E} {P : BoParams XR (Parego.St E)} {din dout : Nat}

/-- the invariant: the underlying GP has been fitted to the scalarised data -/
def ParegoRel (rho : ℝ) (m : Parego.St E) (d : List (List XR × List XR)) : Prop :=
  ∃ xs ys r, xs.length = ys.length ∧ d = finPairs xs ys ∧ m.raw = ys ∧ (∀ a ∈ r, (0:ℝ) ≤ a) ∧ 0 < r.sum ∧
    (∀ y ∈ ys, r.length = y.length) ∧ GpReach E ⟨xs, ys.map fun y => [Parego.scal rho r y], true, true, true, true⟩ m.gp

theorem peRes_ok {o : Option (Parego.St E)} {m : Parego.St E} (h : peRes o = .ok m) : o = some m := by
  cases o with
  | none => cases h
  | some s => cases h; rfl

theorem peRes_throw {o : Option (Parego.St E)} {e : Exn} {m : Parego.St E} (h : peRes o = .throw e m) : False := by
  cases o <;> cases h

/-- one fit -/
theorem parego_fit {c : Parego.Ctx} (hc : GoodDraws c) {xs0 ys0 : List (List ℝ)} {g : GpState E} (hr : GpReach E ⟨xs0, ys0, true, true, true, true⟩ g)
    {s : List (List ℝ)} {n : Nat} {raw xs ys : List (List ℝ)} {m' : Parego.St E} (hl : xs.length = ys.length)
    (h : Parego.compute rho c ⟨{ g with samples := s }, n, raw⟩ xs ys = some m') : ParegoRel rho m' (finPairs xs ys) := by
  have hpos : 0 < (c.randomVector (ys.headD []).length).sum := by
    refine hc.2 _ ?_
    by_contra h0
    have h0 : (ys.headD []).length = 0 := by omega
    cases ys with
    | nil => simp [Parego.compute] at h
    | cons y0 ys0 =>
      simp only [List.headD_cons, List.length_eq_zero_iff] at h0
      subst h0
      simp [Parego.compute, Parego.scalarizeObs, List.mapM_cons, Parego.scalarizeOne, Parego.Ctx.randomVector, Parego.weights, Parego.maxCoeff] at h
  obtain ⟨-, h2, h3, -, h5⟩ := Parego.compute_ok hpos.ne' h
  simp only at h5
  rw [Parego.compute_samples] at h5
  refine ⟨xs, ys, c.randomVector (ys.headD []).length, hl, rfl, h3, ?_, hpos, fun y hy => ?_, hr.step (op := .compute _ _ true) (junk := c.junk) trivial h5⟩
  · intro a ha
    obtain ⟨i, -, rfl⟩ := List.mem_map.1 ha
    exact hc.1 i
  · rw [h2 y hy]; simp [Parego.Ctx.randomVector]

theorem paregoOps_lawful (hE : LawfulEnv E) (hC : ∀ xs ys m, GoodDraws (ctxC xs ys m)) (hA : ∀ x y m, GoodDraws (ctxA x y m)) :
    LawfulRel (paregoOps E rho u ctxC ctxA hp) (ParegoRel rho) where
  fresh i o := ⟨[], [], [1], rfl, rfl, rfl, by simp, by simp, by simp, GpReach.newDims (u i o) i 1⟩
  compute s v m d m' hR hl h := by
    obtain ⟨xs, ys, r, -, -, -, -, -, -, hr⟩ := hR
    have h := peRes_ok h
    rw [Option.bind_eq_some_iff] at h
    obtain ⟨xs', h1, h⟩ := h
    rw [Option.bind_eq_some_iff] at h
    obtain ⟨ys', h2, h⟩ := h
    have e1 := realsL?_eq h1
    have e2 := realsL?_eq h2
    have hl' : xs'.length = ys'.length := by rw [e1, e2] at hl; simpa using hl
    rw [e1, e2, zip_finPairs]
    exact parego_fit (s := m.gp.samples) (hC _ _ _) hr hl' h
  addSample s v m d m' hR h := by
    obtain ⟨xs, ys, r, hlen, rfl, hraw, -, -, -, hr⟩ := hR
    have h := peRes_ok h
    rw [Option.bind_eq_some_iff] at h
    obtain ⟨x, h1, h⟩ := h
    rw [Option.bind_eq_some_iff] at h
    obtain ⟨y, h2, h⟩ := h
    have hs : m.gp.samples = xs := (hr.tracks hE).samples
    unfold Parego.addSample at h
    simp only [hs, hraw] at h
    have := parego_fit (hA x y m) hr (by simp [hlen]) h
    rwa [finPairs_snoc hlen, ← reals?_eq h1, ← reals?_eq h2] at this
  optHp m d m' hR h := by
    obtain ⟨xs, ys, r, hlen, rfl, hraw, h1, h2, h3, hr⟩ := hR
    have h := peRes_ok h
    rw [Option.map_eq_some_iff] at h
    obtain ⟨g, hg, rfl⟩ := h
    exact ⟨xs, ys, r, hlen, rfl, hraw, h1, h2, h3, hp.reach hr hg⟩
  computeThrow s v m d e m' _ h := (peRes_throw h).elim
  addThrow s v m d e m' _ h := (peRes_throw h).elim
  hpThrow m d e m' _ h := (peRes_throw h).elim

theorem ParegoRel.fits (hE : LawfulEnv E) {m : Parego.St E} {d : List (List XR × List XR)} (h : ParegoRel rho m d) : ParegoFits rho m d := by
  obtain ⟨xs, ys, r, hl, rfl, -, h1, h2, h3, hr⟩ := h
  refine ⟨xs, ys, r, ys.map (Parego.scal rho r), hl, rfl, h1, h2, ?_, ?_⟩
  · rw [List.forall₂_map_right_iff, List.forall₂_same]
    exact fun y hy => (Parego.scal_spec rho r y h2.ne' (h3 y hy)).2
  · exact GpRel.fits hE ⟨xs, _, by simp [hl], rfl, by rw [List.map_map]; exact hr⟩

theorem newBo_parego (c : Int) (u0 : ℝ × ℝ) (n : Nat) : RelT (ParegoRel rho) (newBo P c (Parego.new E u0 n)) :=
  ⟨newBo_inv P c _, by intro pre e hp; simp [newBo] at hp, [], [], [], [1], rfl, rfl, rfl, by simp, by simp, by simp, GpReach.new u0⟩

/-- **C114**: after any history of calls of the optimizer, at any moment at which an acquisition function was built or the hyper-parameters
were about to be optimized, the model predicted from exactly the finite evaluations since the last reset, all of them scalarised with one
and the same weight vector; when statistics were written, from all of them but the newest. -/
theorem C114_predictions_from_all_data (hE : LawfulEnv E) (hC : ∀ xs ys m, GoodDraws (ctxC xs ys m)) (hA : ∀ x y m, GoodDraws (ctxA x y m))
    (hP : P.ops = paregoOps E rho u ctxC ctxA hp) (c : Int) (u0 : ℝ × ℝ) (n : Nat)
    (ops : List (BoOp XR (Parego.St E))) (st : BoState XR (Parego.St E)) (h : runOps P ops (newBo P c (Parego.new E u0 n)) = some st)
    (pre post : List (Event XR (Parego.St E))) (g : Parego.St E) (it : Int) :
    (st.trace = pre ++ .acqui g it :: post → ParegoFits rho g (expect pre)) ∧
    (st.trace = pre ++ .hp g :: post → ParegoFits rho g (expect pre)) ∧
    (st.trace = pre ++ .stat g :: post → ∃ others newest, expect pre = others ++ [newest] ∧ ParegoFits rho g others) := by
  have hL : LawfulRel P.ops (ParegoRel (E := E) rho) := by rw [hP]; exact paregoOps_lawful hE hC hA
  have hT := (runOps_inv (I := RelT (ParegoRel rho)) (fun op st h => runOp_rel hL op st h) ops _ st (newBo_parego c u0 n) h).tr
  refine ⟨fun he => ?_, fun he => ?_, fun he => ?_⟩
  · exact (hT pre (.acqui g it) ⟨post, by rw [he]; simp⟩ : ParegoRel rho g (expect pre)).fits hE
  · exact (hT pre (.hp g) ⟨post, by rw [he]; simp⟩ : ParegoRel rho g (expect pre)).fits hE
  · obtain ⟨d, p, h1, h2⟩ := (hT pre (.stat g) ⟨post, by rw [he]; simp⟩ : ∃ d p, ParegoRel rho g d ∧ expect pre = d ++ [p])
    exact ⟨d, p, h2, h1.fits hE⟩

/-- **C114**: when `optimize` returns, `model()` predicts from exactly `samples()` and `observations()`. -/
theorem C114_on_return (hE : LawfulEnv E) (hC : ∀ xs ys m, GoodDraws (ctxC xs ys m)) (hA : ∀ x y m, GoodDraws (ctxA x y m))
    (hP : P.ops = paregoOps E rho u ctxC ctxA hp) (c : Int) (u0 : ℝ × ℝ) (n : Nat)
    (ops : List (BoOp XR (Parego.St E))) (st st' : BoState XR (Parego.St E)) (h : runOps P ops (newBo P c (Parego.new E u0 n)) = some st)
    (f : StateFun XR (Parego.St E)) (afun : List XR → XR) (reset : Bool) (fuel : Nat) (ho : optimize P f afun reset fuel st = .ok st') :
    ParegoFits rho st'.model (st'.samples.zip st'.observations) := by
  have hL : LawfulRel P.ops (ParegoRel (E := E) rho) := by rw [hP]; exact paregoOps_lawful hE hC hA
  have hT := runOps_inv (I := RelT (ParegoRel rho)) (fun op st h => runOp_rel hL op st h) ops _ st (newBo_parego c u0 n) h
  have := optimize_rel hL f afun reset fuel st hT
  rw [ho] at this
  exact this.model.fits hE

/-- the scalarisation succeeds when the sizes match -/
theorem parego_compute_some (hE : LawfulEnv E) {c : Parego.Ctx} (hc : GoodDraws c) {A : GpAbs} {g : GpState E} (hr : GpReach E A g)
    (s : List (List ℝ)) (n : Nat) (raw : List (List ℝ)) {xs ys : List (List ℝ)} (hds : DataSet xs ys din dout) :
    ∃ m', Parego.compute rho c ⟨{ g with samples := s }, n, raw⟩ xs ys = some m' := by
  have hlen : ∀ y ∈ ys, y.length = dout := hds.outputs
  have hdo := hds.dout_pos
  cases ys with
  | nil => exact absurd rfl hds.ys_ne
  | cons y0 ys0 =>
    have hy0 : y0.length = dout := hlen y0 (by simp)
    have hsz : ∀ y ∈ y0 :: ys0, (c.randomVector y0.length).length = y.length := by
      intro y hy; rw [hlen y hy, hy0]; simp [Parego.Ctx.randomVector]
    have hfin := Parego.scalarizeObs_fin rho (c.randomVector y0.length) (y0 :: ys0) (hc.2 _ (by omega)).ne' hsz
    rw [Option.bind_eq_some_iff] at hfin
    obtain ⟨zs, hz, hz2⟩ := hfin
    have hds' : DataSet xs ((y0 :: ys0).map fun y => [Parego.scal rho (c.randomVector y0.length) y]) din 1 :=
      ⟨hds.nonempty, by rw [List.length_map]; exact hds.same, hds.inputs, by simp, hds.din_pos, Nat.one_pos⟩
    obtain ⟨m', hm, -⟩ := track_compute hE c.junk (hr.tracks hE) hds' true
    refine ⟨⟨m', y0.length, y0 :: ys0⟩, ?_⟩
    simp only [Parego.compute]
    rw [hz, Option.bind_some, hz2, Option.bind_some, Parego.compute_samples, hm]
    rfl

/-- the ParEGO model does its job -/
theorem paregoSafe (hE : LawfulEnv E) (hC : ∀ xs ys m, GoodDraws (ctxC xs ys m)) (hA : ∀ x y m, GoodDraws (ctxA x y m))
    (hP : P.ops = paregoOps E rho u ctxC ctxA hp)
    (hhp : 0 < P.hpPeriod → ∀ A g, GpReach E A g → A.UpToDate → A.i = true → hp.run g ≠ none) :
    SafeModel (ParegoRel rho) (ParegoFits rho) (fun _ => True) P din dout where
  law := by rw [hP]; exact paregoOps_lawful hE hC hA
  fits h _ := h.fits hE
  compute {m d} hR {xs ys} hds := by
    obtain ⟨xs0, ys0, r, -, -, -, -, -, -, hr0⟩ := id hR
    obtain ⟨m', hm⟩ := parego_compute_some hE (hC xs ys m) hr0 m.gp.samples m.nbObjs m.raw (rho := rho) hds
    refine ⟨m', ?_, trivial⟩
    rw [hP]
    show peRes _ = _
    rw [realsL?_map, Option.bind_some, realsL?_map, Option.bind_some]
    exact congrArg peRes hm
  add {m xs ys} hR _ hl {x y} hds := by
    obtain ⟨xs0, ys0, r, hl0, he, hraw, -, -, -, hr0⟩ := id hR
    obtain ⟨rfl, rfl⟩ := finPairs_inj hl hl0 he
    have hs : m.gp.samples = xs := (hr0.tracks hE).samples
    obtain ⟨m', hm⟩ := parego_compute_some hE (hA x y m) hr0 (xs ++ [x]) m.nbObjs (ys ++ [y]) (rho := rho) hds
    refine ⟨m', ?_, trivial⟩
    rw [hP]
    show peRes _ = _
    rw [reals?_map, Option.bind_some, reals?_map, Option.bind_some]
    unfold Parego.addSample
    simp only [hs, hraw]
    exact congrArg peRes hm
  hp hper {m d} hR hne _ := by
    obtain ⟨xs3, ys3, r, hl3, he3, -, -, -, -, hr3⟩ := hR
    obtain ⟨g, hg⟩ := Option.ne_none_iff_exists'.1 (hhp hper _ _ hr3 (by
      refine ⟨?_, rfl, rfl, rfl⟩
      rintro rfl
      exact hne (by rw [he3]; simp [finPairs])) rfl)
    exact ⟨{ m with gp := g }, by rw [hP]; show peRes _ = _; rw [hg]; rfl, trivial⟩

theorem freshOk_trueP {M : Type} {P : BoParams XR M} (op : BoOp XR M) : FreshOk (fun _ => True) P op := by cases op <;> trivial

/-- **C114**: no call of a history of careful calls has undefined behaviour. -/
theorem C114_no_undefined_behaviour (hE : LawfulEnv E) (hC : ∀ xs ys m, GoodDraws (ctxC xs ys m)) (hA : ∀ x y m, GoodDraws (ctxA x y m))
    (hP : P.ops = paregoOps E rho u ctxC ctxA hp)
    (hhp : 0 < P.hpPeriod → ∀ A g, GpReach E A g → A.UpToDate → A.i = true → hp.run g ≠ none)
    (hK : ComponentsFor (ParegoFits rho) P din dout) (c : Int) (u0 : ℝ × ℝ) (n : Nat)
    (ops : List (BoOp XR (Parego.St E))) (hops : ∀ o ∈ ops, BoOpOk din dout o)
    (st : BoState XR (Parego.St E)) (h : runOps P ops (newBo P c (Parego.new E u0 n)) = some st)
    (op : BoOp XR (Parego.St E)) (hop : BoOpOk din dout op) : runOp P op st ≠ .ub :=
  no_ubFor (paregoSafe hE hC hA hP hhp) hK (newBo_parego c u0 n) (new_shape P c _) ops (fun o ho => ⟨hops o ho, freshOk_trueP o⟩) st h op hop (freshOk_trueP op)

/-- **C114**: with an iteration limit, `optimize` returns (with a model that predicts from all data) or passes on an exception. -/
theorem C114_optimize_ends (hE : LawfulEnv E) (hC : ∀ xs ys m, GoodDraws (ctxC xs ys m)) (hA : ∀ x y m, GoodDraws (ctxA x y m))
    (hP : P.ops = paregoOps E rho u ctxC ctxA hp)
    (hhp : 0 < P.hpPeriod → ∀ A g, GpReach E A g → A.UpToDate → A.i = true → hp.run g ≠ none)
    (hK : ComponentsFor (ParegoFits rho) P din dout) (c : Int) (u0 : ℝ × ℝ) (n : Nat) (N : Int) (hN : maxIterations N ∈ P.stop)
    (ops : List (BoOp XR (Parego.St E))) (hops : ∀ o ∈ ops, BoOpOk din dout o)
    (st : BoState XR (Parego.St E)) (h : runOps P ops (newBo P c (Parego.new E u0 n)) = some st)
    (f : StateFun XR (Parego.St E)) (hf : ObjectiveOk din dout f) (afun : List XR → XR) (reset : Bool) (fuel : Nat) (hfuel : N < fuel) :
    (∃ st', optimize P f afun reset (fuel + 1) st = .ok st' ∧ ParegoFits rho st'.model (st'.samples.zip st'.observations)) ∨
      ∃ e st', optimize P f afun reset (fuel + 1) st = .throw e st' := by
  have hd : ∀ o : Option (Parego.St E), peRes o ≠ .diverge := by intro o; cases o <;> simp [peRes]
  rcases optimize_endsFor (paregoSafe hE hC hA hP hhp) hK (newBo_parego c u0 n) (new_shape P c _) (by rw [hP]; intro a b m; exact hd _)
    (by rw [hP]; intro a b m; exact hd _) (by rw [hP]; intro m; exact hd _) N hN ops (fun o ho => ⟨hops o ho, freshOk_trueP o⟩) st h f hf trivial
    afun reset fuel hfuel with ⟨st', a, b⟩ | h
  · exact Or.inl ⟨st', a, b.model.fits hE⟩
  · exact Or.inr h

/-- the choice of grid search -/
theorem parego_grid_choice (hE : LawfulEnv E) (hC : ∀ xs ys m, GoodDraws (ctxC xs ys m)) (hA : ∀ x y m, GoodDraws (ctxA x y m))
    (hP : P.ops = paregoOps E rho u ctxC ctxA hp) {b fuel d : Nat} (hG : UsesGridSearch P b fuel) (hd : 0 < d)
    (c : Int) (u0 : ℝ × ℝ) (n : Nat) (ops : List (BoOp XR (Parego.St E))) (afun : List XR → XR)
    (hops : ∀ f a r n, BoOp.optimize f a r n ∈ ops → a = afun ∧ f.dimIn = d) (st : BoState XR (Parego.St E))
    (h : runOps P ops (newBo P c (Parego.new E u0 n)) = some st) (pre rest : List (Event XR (Parego.St E))) (g : Parego.St E) (it : Int)
    (htr : st.trace = pre ++ .acqui g it :: rest) :
    ParegoFits rho g (expect pre) ∧ ∃ x r post, rest = .call (x.map XR.fin) r :: post ∧ GridPt b d x ∧
      ∀ q, GridPt b d q → lt (P.acqui g it afun (x.map XR.fin) false).1 (P.acqui g it afun (q.map XR.fin) false).1 = false := by
  refine ⟨(C114_predictions_from_all_data hE hC hA hP c u0 n ops st h pre rest g it).1 htr, ?_⟩
  have hnt : ∀ q f x b, P.acquiOpt q f x b ≠ .threw := by
    intro q f x b; rw [hG.opt]; simp only [Optz.toRes]; split <;> simp
  obtain ⟨q, n, x, r, post, hr, -, -, -, hn, hx⟩ := runOps_traceT (chosen_step (D := fun n => n = d) (afun := afun) hnt) ops hops _ st chosen_nil h pre g it rest htr
  subst hn
  rw [hG.opt, hG.bounded] at hx
  simp only [Optz.toRes] at hx
  split at hx
  swap
  · cases hx
  next y hy =>
  cases hx
  obtain ⟨h1, h2⟩ := gridSearch_some_optimum hG.bins hG.fuel (by rw [hG.start]; exact hd) hy
  rw [hG.start] at h1 h2
  obtain ⟨v, rfl, hv⟩ := onGrid_iff.1 h1
  exact ⟨v, r, post, hr, hv, fun q hq => h2 _ (onGrid_iff.2 ⟨q, rfl, hq⟩)⟩

/-- **C114**, `acqui::EI` with `opt::GridSearch`: each time the optimizer decided, the next point evaluated was a grid point with the
highest expected improvement of the scalarised objective, for the posterior given all data scalarised with one weight vector. -/
theorem C114_ei (hE : LawfulEnv E) (hC : ∀ xs ys m, GoodDraws (ctxC xs ys m)) (hA : ∀ x y m, GoodDraws (ctxA x y m))
    (hP : P.ops = paregoOps E rho u ctxC ctxA hp) {b fuel d : Nat} (hG : UsesGridSearch P b fuel) (hd : 0 < d)
    (jitter w : ℝ) (hQ : P.acqui = fun m => eiObj jitter w m.gp) (c : Int) (u0 : ℝ × ℝ) (n : Nat) (ops : List (BoOp XR (Parego.St E)))
    (afun : List XR → XR) (F : List ℝ → ℝ) (hF : ∀ l, afun (l.map XR.fin) = XR.fin (F l))
    (hops : ∀ f a r n, BoOp.optimize f a r n ∈ ops → a = afun ∧ f.dimIn = d) (st : BoState XR (Parego.St E))
    (h : runOps P ops (newBo P c (Parego.new E u0 n)) = some st) (pre rest : List (Event XR (Parego.St E))) (g : Parego.St E) (it : Int)
    (htr : st.trace = pre ++ .acqui g it :: rest) :
    ParegoFits rho g (expect pre) ∧ ∃ x r post, rest = .call (x.map XR.fin) r :: post ∧ GridPt b d x ∧
      ∃ mean var value, Predicts g.gp mean var ∧ IsEi g.gp mean var F jitter value ∧ ∀ q, GridPt b d q → value q ≤ value x := by
  obtain ⟨hfit, x, r, post, hr, hx, hmax⟩ := parego_grid_choice hE hC hA hP hG hd c u0 n ops afun hops st h pre rest g it htr
  obtain ⟨xs, ys, rr, vs, -, -, -, -, -, hgp⟩ := id hfit
  obtain ⟨mean, var, hm⟩ := fits_predicts hgp
  obtain ⟨value, hei, hv⟩ := ei_values hm jitter w hF it
  refine ⟨hfit, x, r, post, hr, hx, mean, var, value, hm, hei, fun q hq => ?_⟩
  have := hmax q hq
  rw [hQ] at this
  simp only [hv] at this
  by_contra hlt
  rw [(XR.lt_fin _ _).2 (not_le.1 hlt)] at this
  cases this

/-- **C114**, `acqui::UCB` with `opt::GridSearch`: the same for the upper confidence bound. -/
theorem C114_ucb (hE : LawfulEnv E) (hC : ∀ xs ys m, GoodDraws (ctxC xs ys m)) (hA : ∀ x y m, GoodDraws (ctxA x y m))
    (hP : P.ops = paregoOps E rho u ctxC ctxA hp) {b fuel d : Nat} (hG : UsesGridSearch P b fuel) (hd : 0 < d)
    (alpha : ℝ) (hQ : P.acqui = fun m => ucbObj alpha m.gp) (c : Int) (u0 : ℝ × ℝ) (n : Nat) (ops : List (BoOp XR (Parego.St E)))
    (afun : List XR → XR) (F : List ℝ → ℝ) (hF : ∀ l, afun (l.map XR.fin) = XR.fin (F l))
    (hops : ∀ f a r n, BoOp.optimize f a r n ∈ ops → a = afun ∧ f.dimIn = d) (st : BoState XR (Parego.St E))
    (h : runOps P ops (newBo P c (Parego.new E u0 n)) = some st) (pre rest : List (Event XR (Parego.St E))) (g : Parego.St E) (it : Int)
    (htr : st.trace = pre ++ .acqui g it :: rest) :
    ParegoFits rho g (expect pre) ∧ ∃ x r post, rest = .call (x.map XR.fin) r :: post ∧ GridPt b d x ∧
      ∃ mean var, Predicts g.gp mean var ∧ ∀ q, GridPt b d q → F (mean q) + alpha * √(var q) ≤ F (mean x) + alpha * √(var x) := by
  obtain ⟨hfit, x, r, post, hr, hx, hmax⟩ := parego_grid_choice hE hC hA hP hG hd c u0 n ops afun hops st h pre rest g it htr
  obtain ⟨xs, ys, rr, vs, -, -, -, -, -, hgp⟩ := id hfit
  obtain ⟨mean, var, hm⟩ := fits_predicts hgp
  refine ⟨hfit, x, r, post, hr, hx, mean, var, hm, fun q hq => ?_⟩
  have hval : ∀ v : List ℝ, (P.acqui g it afun (v.map XR.fin) false).1 = XR.fin (F (mean v) + alpha * √(var v)) := by
    intro v
    rw [hQ]
    simp only [ucbObj, reals?_map, Option.bind_some, Acqui.ucb, Bool.false_eq_true, if_false, hm.view, Option.map_some, realAgg_eq hF]
  have := hmax q hq
  rw [hval, hval] at this
  by_contra hlt
  rw [(XR.lt_fin _ _).2 (not_le.1 hlt)] at this
  cases this

/-! ### a run -/

/-- equal weights -/
noncomputable def exParegoCtx : Parego.Ctx := ⟨fun _ => 1 / 2, fun _ _ => 7⟩

theorem exParegoCtx_good : GoodDraws exParegoCtx :=
  ⟨fun _ => by norm_num [exParegoCtx], fun n hn => by
    have : (0:ℝ) < n := Nat.cast_pos.2 hn
    simp [Parego.Ctx.randomVector, exParegoCtx, this]⟩

/-- one initial point, one iteration, expected improvement on a grid with three points -/
noncomputable def exParegoP : BoParams XR (Parego.St exEnvConst) where
  bounded := true
  statsEnabled := false
  hpPeriod := -1
  ops := paregoOps exEnvConst 0.05 (fun _ _ => (1, 2)) (fun _ _ _ => exParegoCtx) (fun _ _ _ => exParegoCtx) .none
  initPts := fun _ _ => some [[XR.fin 0]]
  acqui := fun m => eiObj 0 7 m.gp
  acquiOpt := fun _ f x bd => (gridSearch 2 4).toRes f x bd
  startPt := fun _ d => List.replicate d (XR.fin 0)
  stop := [maxIterations 1]
  stats := []

/-- two objectives; the first values are `(1, 2)`, the others `(3, 1)` -/
noncomputable def exParegoF : StateFun XR (Parego.St exEnvConst) where
  dimIn := 1
  dimOut := 2
  call := fun tr _ => if (callPts tr).length = 0 then .ret [XR.fin 1, XR.fin 2] else .ret [XR.fin 3, XR.fin 1]

theorem exParego_components : ComponentsFor (ParegoFits 0.05) exParegoP 1 2 where
  din_pos := one_pos
  dout_pos := two_pos
  init := fun _ => ⟨_, rfl, by intro x hx; simp at hx; subst hx; exact ⟨by simp [AllFin], rfl⟩⟩
  inner := fun st afun h => by
    obtain ⟨xs, ys, r, vs, -, -, -, -, -, hgp⟩ := h
    exact Or.inl (C93_ei_grid_search_never_fails (by norm_num) (by norm_num) one_pos 0 7 st.model.gp st.currentIteration hgp afun _ (by simp [exParegoP]))
  stop := fun c hc st afun _ => by simp [exParegoP] at hc; subst hc; simp [maxIterations]
  stats := fun s hs => by simp [exParegoP] at hs

theorem exParego_grid : UsesGridSearch exParegoP 2 4 := ⟨rfl, rfl, fun _ _ => by simp [exParegoP], by norm_num, by norm_num⟩

/-- the acquisition function is built once in this run, from a model with one evaluation -/
theorem exParego_run (afun : List XR → XR) : ∃ st' g pre post,
    optimize exParegoP exParegoF afun true 5 (newBo exParegoP 0 (Parego.new exEnvConst (0, 0) 0)) = .ok st' ∧
    st'.trace = pre ++ .acqui g 0 :: post ∧ expect pre = [([XR.fin 0], [XR.fin 1, XR.fin 2])] ∧ st'.samples.length = 2 := by
  have hE := exEnvConst_lawful
  have hS : SafeModel (ParegoRel 0.05) (ParegoFits 0.05) (fun _ => True) exParegoP 1 2 :=
    paregoSafe hE (fun _ _ _ => exParegoCtx_good) (fun _ _ _ => exParegoCtx_good) rfl (fun h => absurd h (by decide))
  have hd1 : DataSet [[(0:ℝ)]] [[1, 2]] 1 2 := ⟨by simp, by simp, by simp, by simp, by norm_num, by norm_num⟩
  obtain ⟨d0, h0⟩ := (newBo_parego (P := exParegoP) (rho := 0.05) 0 (0, 0) 0).wf
  obtain ⟨s1, c1, -⟩ := hS.compute h0 hd1
  have h1 := hS.law.compute _ _ _ _ _ h0 (by simp) c1
  obtain ⟨xs, ys, r, vs, -, -, -, -, -, hgp⟩ := hS.fits h1 trivial
  obtain ⟨y, hy, hy1, hy2⟩ := C93_ei_grid_search_never_fails (b := 2) (fuel := 4) (d := 1) (by norm_num) (by norm_num) one_pos 0 7 s1.gp 0 hgp afun [XR.fin 0] rfl
  obtain ⟨t, rfl⟩ : ∃ t : ℝ, y = [XR.fin t] := by
    obtain ⟨a, rfl⟩ := List.length_eq_one_iff.1 hy2
    obtain ⟨t, rfl⟩ := hy1 a (by simp)
    exact ⟨t, rfl⟩
  have hd2 : DataSet ([[(0:ℝ)]] ++ [[t]]) ([[1, 2]] ++ [[3, 1]]) 1 2 := ⟨by simp, by simp, by simp, by simp, by norm_num, by norm_num⟩
  obtain ⟨s2, c2, -⟩ := hS.add (xs := [[0]]) (ys := [[1, 2]]) h1 trivial rfl hd2
  simp only [List.map_cons, List.map_nil] at c1 c2
  change exParegoP.ops.compute _ _ (Parego.new exEnvConst (0, 0) 0) = _ at c1
  have hn : ∀ a b : ℝ, isNanOrInf [XR.fin a, XR.fin b] = false := fun _ _ => rfl
  have e1 : exParegoP.initPts = fun _ _ => some [[XR.fin 0]] := rfl
  have e2 : exParegoP.acquiOpt = fun _ f x bd => (gridSearch 2 4).toRes f x bd := rfl
  have ea : exParegoP.acqui = fun m => eiObj 0 7 m.gp := rfl
  have eb : exParegoP.bounded = true := rfl
  have e3 : exParegoP.stop = [maxIterations 1] := rfl
  have e4 : exParegoP.statsEnabled = false := rfl
  have e5 : exParegoP.hpPeriod = -1 := rfl
  have e6 : exParegoF.call = fun tr _ => if (callPts tr).length = 0 then .ret [XR.fin 1, XR.fin 2] else .ret [XR.fin 3, XR.fin 1] := rfl
  have e7 : exParegoF.dimIn = 1 := rfl
  have es : ∀ q, exParegoP.startPt q 1 = [XR.fin 0] := fun _ => rfl
  unfold optimize boInit
  simp [e1, evalAll, evalAndAdd, e6, newBo, BoState.push, callPts, addNewSample, hn, Res.andThen, boModelInit, c1, withModel, Res.bind, boLoop,
    boStop, chainCriteria, e3, maxIterations, boIteration, e2, ea, eb, es, e7, hy, updateStats, e4, boModelAdd, c2, boHp, e5]
  exact ⟨s1, [.start true, .call [XR.fin 0] (.ret [XR.fin 1, XR.fin 2]), .asked 0 false], ⟨_, rfl⟩, rfl⟩

/-- the hypotheses are met by this run -/
example : ∃ st g pre rest, runOps exParegoP [.optimize exParegoF (fun v => v.headD (XR.fin 0)) true 5] (newBo exParegoP 0 (Parego.new exEnvConst (0, 0) 0)) = some st ∧
    st.trace = pre ++ .acqui g 0 :: rest ∧ expect pre = [([XR.fin 0], [XR.fin 1, XR.fin 2])] ∧
    ParegoFits 0.05 g (expect pre) ∧ ∃ x r post, rest = .call (x.map XR.fin) r :: post ∧ GridPt 2 1 x ∧
      ∃ mean var value, Predicts g.gp mean var ∧ IsEi g.gp mean var (fun v => v.headD 0) 0 value ∧ ∀ q, GridPt 2 1 q → value q ≤ value x := by
  obtain ⟨st, g, pre, post, a, b, c, -⟩ := exParego_run fun v => v.headD (XR.fin 0)
  have hrun : runOps exParegoP [.optimize exParegoF (fun v => v.headD (XR.fin 0)) true 5] (newBo exParegoP 0 (Parego.new exEnvConst (0, 0) 0)) = some st := by
    simp only [runOps, runOp, a]
  refine ⟨st, g, pre, post, hrun, b, c, C114_ei exEnvConst_lawful (fun _ _ _ => exParegoCtx_good) (fun _ _ _ => exParegoCtx_good) rfl exParego_grid one_pos 0 7 rfl 0
    (0, 0) 0 _ (fun v => v.headD (XR.fin 0)) (fun v => v.headD 0) (fun l => by cases l <;> rfl) ?_ st hrun pre post g 0 b⟩
  intro f a r n hm
  simp only [List.mem_singleton, BoOp.optimize.injEq] at hm
  obtain ⟨rfl, rfl, -, -⟩ := hm
  exact ⟨rfl, rfl⟩

/-- ... and so are those about failures -/
example : (∃ st', optimize exParegoP exParegoF (fun v => v.headD (XR.fin 0)) true 5 (newBo exParegoP 0 (Parego.new exEnvConst (0, 0) 0)) = .ok st' ∧
    ParegoFits 0.05 st'.model (st'.samples.zip st'.observations)) ∨
    ∃ e st', optimize exParegoP exParegoF (fun v => v.headD (XR.fin 0)) true 5 (newBo exParegoP 0 (Parego.new exEnvConst (0, 0) 0)) = .throw e st' :=
  C114_optimize_ends exEnvConst_lawful (fun _ _ _ => exParegoCtx_good) (fun _ _ _ => exParegoCtx_good) rfl (fun h => absurd h (by decide)) exParego_components 0
    (0, 0) 0 1 (by simp [exParegoP]) [] (by simp) _ rfl exParegoF ⟨rfl, fun tr x v h => by
      simp only [exParegoF] at h
      split at h <;> cases h <;> rfl⟩ _ true 4 (by norm_num)

end Limbo
