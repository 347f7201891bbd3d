import Verif.Model.Par
import Verif.Lemmas.Gauss
import Verif.Spec.AcquiGp
import Verif.Props.Gp

/-!
Properties of the acquisition functions: C52 (UCB, GP-UCB), C53 (expected improvement), C63 (constrained expected improvement).
-/

namespace Limbo

open Acqui Gp

variable {E : GpEnv} {A : GpAbs} {st : GpState E} {din dout : Nat}

theorem XR.acqui_sqrt_fin {x : ℝ} (h : 0 ≤ x) : XR.sqrt (XR.fin x) = XR.fin √x := if_neg (not_lt.2 h)

theorem XR.acqui_fin_div_fin (a b : ℝ) (h : b ≠ 0) : XR.fin a / XR.fin b = XR.fin (a / b) := if_neg h

theorem xlog_pos {x : ℝ} (h : 0 < x) : xlog (XR.fin x) = XR.fin (Real.log x) := (if_neg h.ne').trans (if_neg (not_lt.2 h.le))

theorem xlog_zero : xlog (XR.fin 0) = (Xt.ninf : Xt ℝ) := if_pos rfl

/-! ### predictions seen by an acquisition function -/

theorem view_mu (hE : LawfulEnv E) (hr : GpReach E A st) (hA : A.UpToDate) (hd : DataSet A.xs A.ys din dout) (v : List ℝ) :
    (Gp.view st).mu v = some (predMean st A dout v) := by
  obtain ⟨m, h1, h2⟩ := C27_mu_is_posterior_mean hE hr hA.1 hA.2.2.2 hd v
  have hdo : st.dimOut.toNat = dout := by rw [((hr.tracks hE).hasData hd).dimOut]; simp
  show (Gp.mu st v).map _ = _
  rw [h1, hdo, Option.map_some]
  congr 1
  exact List.map_congr_left fun c hc => h2 c (by simpa using hc)

theorem view_query (hE : LawfulEnv E) (hr : GpReach E A st) (hA : A.UpToDate) (hd : DataSet A.xs A.ys din dout) (v : List ℝ) :
    (Gp.view st).query v = some (predMean st A dout v, predVar st A v) := by
  have h1 := view_mu hE hr hA hd v
  show (Gp.query st v).map _ = _
  rw [C28_query_is_mu_sigma, C27_sigma_is_posterior_variance hE hr hA.1 hA.2.1 v]
  change (Gp.mu st v).map _ = _ at h1
  cases hm : Gp.mu st v with
  | none => rw [hm] at h1; simp at h1
  | some m =>
    rw [hm] at h1
    simp only [Option.map_some, Option.some.injEq] at h1
    simp only [Option.bind_some, Option.map_some, h1]
    rfl

theorem view_samples (hE : LawfulEnv E) (hr : GpReach E A st) : (Gp.view st).samples = A.xs := (hr.tracks hE).samples

theorem predVar_nonneg (hE : LawfulEnv E) (hr : GpReach E A st) (hA : A.UpToDate) (hd : DataSet A.xs A.ys din dout) {v : List ℝ}
    (hv : v.length = din) : 0 ≤ predVar st A v := by
  have T := hr.tracks hE
  obtain ⟨r, h1, h2, -⟩ := C29_variance_bounds hE hr hA.2.1 v (by rw [hv, (T.hasData hd).dimIn])
  rw [C27_sigma_is_posterior_variance hE hr hA.1 hA.2.1 v] at h1
  have hn : 0 ≤ st.kf.noise := by
    rcases T.reach.1 with h | h
    · have := (T.hasData hd).dimIn; omega
    · exact (kok_of_reach hE h).noise
  rw [Option.some.injEq] at h1
  unfold predVar
  rw [h1]
  linarith

/-! ### C52 -/

/-- **C52**: on a fitted GP, `UCB` is the aggregated posterior mean plus `alpha` posterior standard deviations. -/
theorem C52_ucb (hE : LawfulEnv E) (hr : GpReach E A st) (hA : A.UpToDate) (hd : DataSet A.xs A.ys din dout) (afun : List ℝ → ℝ) (alpha : ℝ)
    (v : List ℝ) : ucb (Gp.view st) afun alpha v false = some (afun (predMean st A dout v) + alpha * √(predVar st A v)) := by
  unfold ucb
  rw [view_query hE hr hA hd v]
  rfl

/-- **C52**: `UCB` increases with the aggregated mean and, for `alpha ≥ 0`, with the variance, for any model. -/
theorem C52_ucb_monotone (m : AModel) (afun : List ℝ → ℝ) {alpha : ℝ} (ha : 0 ≤ alpha) {v v' mu mu' : List ℝ} {s s' : ℝ}
    (h : m.query v = some (mu, s)) (h' : m.query v' = some (mu', s')) (hmu : afun mu ≤ afun mu') (hs : s ≤ s') :
    ∃ a b, ucb m afun alpha v false = some a ∧ ucb m afun alpha v' false = some b ∧ a ≤ b := by
  refine ⟨_, _, by unfold ucb; rw [h]; rfl, by unfold ucb; rw [h']; rfl, ?_⟩
  exact add_le_add hmu (mul_le_mul_of_nonneg_left (Real.sqrt_le_sqrt hs) ha)

theorem beta_arg {t d : Nat} {delta : ℝ} (ht : 1 ≤ t) (h0 : 0 < delta) (h1 : delta ≤ 1) :
    1 < (t : ℝ) ^ ((d : ℝ) / 2 + 2) * Real.pi ^ 2 / (3 * delta) := by
  have ht' : (1 : ℝ) ≤ t := by exact_mod_cast ht
  have hp : (1 : ℝ) ≤ (t : ℝ) ^ ((d : ℝ) / 2 + 2) := Real.one_le_rpow ht' (by positivity)
  have hpi : (3 : ℝ) < Real.pi := Real.pi_gt_three
  rw [lt_div_iff₀ (by linarith)]
  nlinarith

theorem gpUcbBeta_fin {din : Nat} {delta : ℝ} (h0 : 0 < delta) (h1 : delta ≤ 1) {t : Nat} (ht : 1 ≤ t) :
    gpUcbBeta din delta t = XR.fin √(2 * Real.log ((t : ℝ) ^ ((din : ℝ) / 2 + 2) * Real.pi ^ 2 / (3 * delta))) := by
  have hb := beta_arg (d := din) ht h0 h1
  unfold gpUcbBeta
  simp only
  rw [show XR.fin ((t : ℝ) ^ ((din : ℝ) / 2 + 2)) * XR.fin (Real.pi * Real.pi) = XR.fin ((t : ℝ) ^ ((din : ℝ) / 2 + 2) * (Real.pi * Real.pi)) from rfl,
    XR.acqui_fin_div_fin _ _ (by linarith)]
  rw [show (t : ℝ) ^ ((din : ℝ) / 2 + 2) * (Real.pi * Real.pi) / (delta * 3) =
    (t : ℝ) ^ ((din : ℝ) / 2 + 2) * Real.pi ^ 2 / (3 * delta) by rw [sq, mul_comm delta 3]]
  generalize (t : ℝ) ^ ((din : ℝ) / 2 + 2) * Real.pi ^ 2 / (3 * delta) = q at hb
  rw [xlog_pos (by linarith), show XR.fin 2 * XR.fin (Real.log q) = XR.fin (2 * Real.log q) from rfl, XR.acqui_sqrt_fin (by have := Real.log_pos hb; linarith)]

/-- **C52**: from iteration 1 on, for `0 < delta ≤ 1`, `GP_UCB` is a real number, the one of the documentation. -/
theorem C52_gp_ucb (hE : LawfulEnv E) (hr : GpReach E A st) (hA : A.UpToDate) (hd : DataSet A.xs A.ys din dout) (afun : List ℝ → ℝ)
    {delta : ℝ} (h0 : 0 < delta) (h1 : delta ≤ 1) {t : Nat} (ht : 1 ≤ t) {v : List ℝ} (hv : v.length = din) :
    gpUcb (Gp.view st) afun delta t v false = some (XR.fin
      (afun (predMean st A dout v) + √(2 * Real.log ((t : ℝ) ^ ((din : ℝ) / 2 + 2) * Real.pi ^ 2 / (3 * delta))) * √(predVar st A v))) := by
  have hdim : (Gp.view st).dimIn = din := by
    show st.dimIn.toNat = din
    rw [((hr.tracks hE).hasData hd).dimIn]; simp
  have hb := beta_arg (d := din) ht h0 h1
  have hvar := predVar_nonneg hE hr hA hd hv
  unfold gpUcb
  rw [view_query hE hr hA hd v, hdim]
  simp only [Bool.false_eq_true, if_false, Option.map_some, Option.some.injEq]
  rw [gpUcbBeta_fin h0 h1 ht]
  rw [XR.acqui_sqrt_fin hvar]
  rfl

/-- **C52** fails at iteration 0, which is what the optimizer passes first: `GP_UCB` is NaN at every point. -/
theorem C52_gp_ucb_first_iteration_is_nan (m : AModel) (afun : List ℝ → ℝ) {delta : ℝ} (h0 : 0 < delta) {v : List ℝ} {r : List ℝ × ℝ}
    (hq : m.query v = some r) : gpUcb m afun delta 0 v false = some (Xt.nan : Xt ℝ) := by
  unfold gpUcb
  rw [hq]
  simp only [Bool.false_eq_true, if_false, Option.map_some, Option.some.injEq]
  have hbeta : gpUcbBeta m.dimIn delta 0 = (Xt.nan : Xt ℝ) := by
    unfold gpUcbBeta
    have hz : ((0 : Nat) : ℝ) ^ ((m.dimIn : ℝ) / 2 + 2) = 0 := by
      rw [Nat.cast_zero, Real.zero_rpow (by positivity)]
    simp only [hz]
    rw [show XR.fin 0 * XR.fin (Real.pi * Real.pi) = XR.fin (0 * (Real.pi * Real.pi)) from rfl, zero_mul,
      XR.acqui_fin_div_fin _ _ (by linarith), zero_div]
    rw [xlog_zero]
    have h2 : XR.fin 2 * (show XR from (Xt.ninf : Xt ℝ)) = (Xt.ninf : Xt ℝ) := by
      show Xt.infMul false (2 : ℝ) = Xt.ninf
      unfold Xt.infMul
      norm_num
    exact (congrArg XR.sqrt h2).trans rfl
  rw [hbeta]
  rfl

/-- the hypotheses of the C52 theorems: a GP with three samples, iteration 3, `delta = 0.1` -/
example : ∃ st y, GpReach exEnv ⟨[[0, 1], [2, 3], [0, 1]], [[1], [5], [2]], true, true, true, true⟩ st ∧
    gpUcb (Gp.view st) (fun l => l.getD 0 0) 0.1 3 [1, 1] false = some (XR.fin y) := by
  obtain ⟨st, hr⟩ := exReach
  exact ⟨st, _, hr, C52_gp_ucb exEnv_lawful hr ⟨by simp, rfl, rfl, rfl⟩ exData _ (by norm_num) (by norm_num) (by norm_num) (by rfl)⟩

/-! ### C53 -/

theorem fold_max (l : List ℝ) (r : ℝ) : IsGreatest {x | x ∈ r :: l} (l.foldl (fun largest x => if largest < x then x else largest) r) := by
  induction l generalizing r with
  | nil => simp [IsGreatest, upperBounds]
  | cons a l ih =>
    simp only [List.foldl_cons]
    obtain ⟨h1, h2⟩ := ih (if r < a then a else r)
    refine ⟨?_, ?_⟩
    · simp only [Set.mem_setOf_eq, List.mem_cons] at h1 ⊢
      rcases h1 with h1 | h1
      · rw [h1]; split <;> simp
      · exact Or.inr (Or.inr h1)
    · intro x hx
      simp only [Set.mem_setOf_eq, List.mem_cons] at hx
      have hm : ∀ y ∈ (if r < a then a else r) :: l, y ≤ l.foldl (fun largest x => if largest < x then x else largest) (if r < a then a else r) :=
        fun y hy => h2 hy
      have h0 := hm _ (List.mem_cons_self)
      rcases hx with rfl | rfl | hx
      · refine le_trans ?_ h0
        split <;> linarith
      · refine le_trans ?_ h0
        split <;> linarith
      · exact hm _ (List.mem_cons_of_mem _ hx)

theorem rewards_some {m : AModel} {afun : List ℝ → ℝ} {f : List ℝ → List ℝ} : ∀ (l : List (List ℝ)), (∀ x ∈ l, m.mu x = some (f x)) →
    rewards m afun l = some (l.map fun x => afun (f x))
  | [], _ => rfl
  | x :: l, h => by
    unfold rewards
    rw [h x (by simp), Option.bind_some, rewards_some l fun y hy => h y (by simp [hy])]
    rfl

/-- The cache is empty or right. -/
def CacheOK (m : AModel) (afun : List ℝ → ℝ) (f : List ℝ → List ℝ) (s : EiSt) : Prop :=
  s.nb = -1 ∨ (s.nb = (m.samples.length : Int) ∧ (m.samples ≠ [] → IsBestPrediction m afun f s.fmax))

theorem refresh_ok {m : AModel} {afun : List ℝ → ℝ} {f : List ℝ → List ℝ} {s : EiSt} (hm : ∀ x ∈ m.samples, m.mu x = some (f x))
    (hne : m.samples ≠ []) (hs : CacheOK m afun f s) :
    ∃ s', s.refresh m afun = some s' ∧ CacheOK m afun f s' ∧ IsBestPrediction m afun f s'.fmax := by
  unfold EiSt.refresh
  by_cases h : s.nb ≠ (m.samples.length : Int)
  · rw [if_pos h, rewards_some _ hm]
    simp only [Option.bind_some]
    cases hl : m.samples with
    | nil => exact absurd hl hne
    | cons x l =>
      have hb : IsBestPrediction m afun f ((l.map fun x => afun (f x)).foldl (fun largest x => if largest < x then x else largest) (afun (f x))) := by
        have := fold_max (l.map fun x => afun (f x)) (afun (f x))
        unfold IsBestPrediction
        rw [hl]
        convert this using 2
        ext y
        simp only [List.mem_cons, List.mem_map, exists_eq_or_imp]
        constructor
        · rintro (h | ⟨a, h1, h2⟩)
          · exact Or.inl h
          · exact Or.inr ⟨a, h1, h2.symm⟩
        · rintro (h | ⟨a, h1, h2⟩)
          · exact Or.inl h
          · exact Or.inr ⟨a, h1, h2.symm⟩
      refine ⟨⟨(m.samples.length : Int), _⟩, by rw [hl]; rfl, Or.inr ⟨rfl, fun _ => hb⟩, hb⟩
  · rw [if_neg h]
    have hn : s.nb = (m.samples.length : Int) := not_not.1 h
    refine ⟨s, rfl, hs, ?_⟩
    rcases hs with hs | hs
    · omega
    · exact hs.2 hne

theorem ei_cache {m : AModel} {afun : List ℝ → ℝ} {f : List ℝ → List ℝ} {jitter : ℝ} {s : EiSt} (hm : ∀ x ∈ m.samples, m.mu x = some (f x))
    (h : EiReach m afun jitter s) : CacheOK m afun f s := by
  induction h with
  | new u => exact Or.inl rfl
  | @call s s' v g y _ hc ih =>
    unfold ei at hc
    cases g with
    | true => simp at hc
    | false =>
      simp only [Bool.false_eq_true, if_false] at hc
      cases hq : m.query v with
      | none => rw [hq] at hc; simp at hc
      | some r =>
        rw [hq] at hc
        simp only [Option.bind_some] at hc
        by_cases hz : √r.2 < 1e-10 ∨ m.samples.length < 1
        · rw [if_pos hz] at hc
          simp only [Option.some.injEq, Prod.mk.injEq] at hc
          rw [← hc.1]; exact ih
        · rw [if_neg hz] at hc
          have hne : m.samples ≠ [] := by
            intro e; apply hz; right; rw [e]; simp
          obtain ⟨s2, e2, hok, -⟩ := refresh_ok hm hne ih
          rw [e2] at hc
          simp only [Option.map_some, Option.some.injEq, Prod.mk.injEq] at hc
          rw [← hc.1]; exact hok

/-- **C53** for any model: an `EI` object used with one model and one aggregator returns the expected improvement over the best aggregated
prediction at the samples plus the jitter, for a Gaussian with the predicted (aggregated) mean and variance. -/
theorem C53_expected_improvement {m : AModel} {afun : List ℝ → ℝ} {f : List ℝ → List ℝ} {jitter : ℝ} {s : EiSt}
    (hm : ∀ x ∈ m.samples, m.mu x = some (f x)) (hs : EiReach m afun jitter s) (hne : m.samples ≠ []) {v mu : List ℝ} {var : ℝ}
    (hq : m.query v = some (mu, var)) (hv : 1e-10 ≤ √var) :
    ∃ s' fmax, IsBestPrediction m afun f fmax ∧ ei m afun jitter s v false = some (s', expectedExcess (afun mu) var (fmax + jitter)) := by
  obtain ⟨s', e, -, hb⟩ := refresh_ok hm hne (ei_cache hm hs)
  have hlen : ¬ m.samples.length < 1 := by have := List.length_pos_iff.2 hne; omega
  have hvar : 0 < var := Real.sqrt_pos.1 (lt_of_lt_of_le (by norm_num) hv)
  refine ⟨s', s'.fmax, hb, ?_⟩
  unfold ei
  simp only [Bool.false_eq_true, if_false, hq, Option.bind_some]
  rw [if_neg (by rintro (h | h); exact absurd hv (not_le.2 h); exact hlen h), e]
  simp only [Option.map_some]
  rw [expectedExcess_eq _ hvar, sub_sub]

/-- **C53**: zero without data or without uncertainty. -/
theorem C53_zero {m : AModel} {afun : List ℝ → ℝ} {jitter : ℝ} {s : EiSt} {v mu : List ℝ} {var : ℝ} (hq : m.query v = some (mu, var))
    (h : m.samples = [] ∨ √var < 1e-10) : ei m afun jitter s v false = some (s, 0) := by
  unfold ei
  simp only [Bool.false_eq_true, if_false, hq, Option.bind_some]
  rw [if_pos]
  rcases h with h | h
  · right; rw [h]; simp
  · left; exact h

theorem expectedExcess_nonneg (m var b : ℝ) : 0 ≤ expectedExcess m var b := MeasureTheory.integral_nonneg fun _ => le_max_left _ _

/-- **C53**: the expected improvement is never negative. -/
theorem C53_nonneg {m : AModel} {afun : List ℝ → ℝ} {f : List ℝ → List ℝ} {jitter : ℝ} {s s' : EiSt} {y : ℝ} {v : List ℝ} {g : Bool}
    (hm : ∀ x ∈ m.samples, m.mu x = some (f x)) (hs : EiReach m afun jitter s) (h : ei m afun jitter s v g = some (s', y)) : 0 ≤ y := by
  cases g with
  | true => simp [ei] at h
  | false =>
    cases hq : m.query v with
    | none => simp [ei, hq] at h
    | some r =>
      obtain ⟨mu, var⟩ := r
      by_cases hz : m.samples = [] ∨ √var < 1e-10
      · rw [C53_zero hq hz] at h
        simp only [Option.some.injEq, Prod.mk.injEq] at h
        exact h.2.le
      · obtain ⟨hz1, hz2⟩ := not_or.1 hz
        obtain ⟨s2, fmax, -, e⟩ := C53_expected_improvement hm hs hz1 hq (not_lt.1 hz2)
        rw [e] at h
        simp only [Option.some.injEq, Prod.mk.injEq] at h
        rw [← h.2]
        exact expectedExcess_nonneg _ _ _

/-- **C53** on a fitted GP: the expected improvement for the posterior distribution at `v`, over the best posterior mean at the samples. -/
theorem C53_gp (hE : LawfulEnv E) (hr : GpReach E A st) (hA : A.UpToDate) (hd : DataSet A.xs A.ys din dout) {afun : List ℝ → ℝ} {jitter : ℝ}
    {s : EiSt} (hs : EiReach (Gp.view st) afun jitter s) {v : List ℝ} (hv : 1e-10 ≤ √(predVar st A v)) :
    ∃ s' fmax, IsGreatest {y | ∃ x ∈ A.xs, y = afun (predMean st A dout x)} fmax ∧
      ei (Gp.view st) afun jitter s v false =
        some (s', expectedExcess (afun (predMean st A dout v)) (predVar st A v) (fmax + jitter)) := by
  have hsam := view_samples hE hr
  obtain ⟨s', fmax, h1, h2⟩ := C53_expected_improvement (f := predMean st A dout) (fun x _ => view_mu hE hr hA hd x) hs
    (by rw [hsam]; exact hA.1) (view_query hE hr hA hd v) hv
  refine ⟨s', fmax, ?_, h2⟩
  unfold IsBestPrediction at h1
  rwa [hsam] at h1

/-! the cache only looks at the number of samples -/

/-- A model with one sample whose mean prediction is `b` at that sample and `0` elsewhere. -/
def oneSample (b : ℝ) : AModel := ⟨fun _ => some ([0], 1), fun _ => some [b], [[0]], 1⟩

theorem erfc_pos (z : ℝ) : 0 < capPhi z := by
  have h := probAtLeast_eq z (var := 1) one_pos 0
  rw [sub_zero, Real.sqrt_one, div_one] at h
  rw [← h]
  unfold probAtLeast
  rw [MeasureTheory.Measure.real, ENNReal.toReal_pos_iff]
  refine ⟨?_, MeasureTheory.measure_lt_top _ _⟩
  rw [pos_iff_ne_zero]
  intro h0
  have := ProbabilityTheory.gaussianReal_absolutelyContinuous' z (v := (1 : ℝ).toNNReal) (by simp)
  have := this h0
  rw [Real.volume_Ici] at this
  simp at this

/-- **C53** fails when the model changes without changing its number of samples (e.g. new hyper-parameters): the object keeps using the
old best prediction. -/
theorem C53_stale_after_model_change : ∃ s y y' s' s'', ei (oneSample 0) (fun l => l.getD 0 0) 0 (.new 7) [1] false = some (s, y) ∧
    ei (oneSample 5) (fun l => l.getD 0 0) 0 s [1] false = some (s', y) ∧
    ei (oneSample 5) (fun l => l.getD 0 0) 0 (.new 7) [1] false = some (s'', y') ∧ y' ≠ y := by
  have hn : ¬ ((√(1 : ℝ) < 1e-10) ∨ [[(0 : ℝ)]].length < 1) := by
    rw [Real.sqrt_one]; rintro (h | h)
    · norm_num at h
    · simp at h
  refine ⟨⟨1, 0⟩, phi 0, -5 * capPhi (-5) + phi (-5), ⟨1, 0⟩, ⟨1, 5⟩, ?_, ?_, ?_, ?_⟩
  · unfold ei oneSample
    simp only [Bool.false_eq_true, if_false, Option.bind_some]
    rw [if_neg hn]
    simp [EiSt.refresh, EiSt.new, rewards, maxElement]
  · unfold ei oneSample
    simp only [Bool.false_eq_true, if_false, Option.bind_some]
    rw [if_neg hn]
    simp [EiSt.refresh]
  · unfold ei oneSample
    simp only [Bool.false_eq_true, if_false, Option.bind_some]
    rw [if_neg hn]
    simp [EiSt.refresh, EiSt.new, rewards, maxElement]
  · apply ne_of_lt
    have h1 := erfc_pos (-5)
    have h2 : phi (-5) ≤ phi 0 := by
      unfold phi
      apply div_le_div_of_nonneg_right _ (Real.sqrt_nonneg _)
      apply Real.exp_le_exp.2
      norm_num
    linarith

/-! ### C63 -/

theorem eci_cache {m c : AModel} {afun : List ℝ → ℝ} {f : List ℝ → List ℝ} {jitter : ℝ} {s : EiSt} (hm : ∀ x ∈ m.samples, m.mu x = some (f x))
    (h : EciReach m c afun jitter s) : CacheOK m afun f s := by
  induction h with
  | new u => exact Or.inl rfl
  | @call s s' v g y _ hc ih =>
    unfold eci at hc
    cases g with
    | true => simp at hc
    | false =>
      simp only [Bool.false_eq_true, if_false] at hc
      cases hq : m.query v with
      | none => rw [hq] at hc; simp at hc
      | some r =>
        rw [hq] at hc
        simp only [Option.bind_some] at hc
        by_cases hz : √r.2 < 1e-10 ∨ m.samples.length < 1
        · rw [if_pos hz] at hc
          simp only [Option.some.injEq, Prod.mk.injEq] at hc
          rw [← hc.1]; exact ih
        · rw [if_neg hz] at hc
          have hne : m.samples ≠ [] := by
            intro e; apply hz; right; rw [e]; simp
          obtain ⟨s2, e2, hok, -⟩ := refresh_ok hm hne ih
          rw [e2] at hc
          simp only [Option.bind_some, Option.map_eq_some_iff, Prod.mk.injEq] at hc
          obtain ⟨p, -, hc1, -⟩ := hc
          rw [← hc1]; exact hok

/-- **C63**: the constrained expected improvement is the expected improvement times the probability of feasibility. -/
theorem C63_product {m c : AModel} {afun : List ℝ → ℝ} {f : List ℝ → List ℝ} {jitter : ℝ} {s : EiSt}
    (hm : ∀ x ∈ m.samples, m.mu x = some (f x)) (hs : EciReach m c afun jitter s) (hne : m.samples ≠ []) {v mu cmu : List ℝ} {var cvar : ℝ}
    (hq : m.query v = some (mu, var)) (hc : c.query v = some (cmu, cvar)) (hv : 1e-10 ≤ √var) :
    ∃ s' fmax, IsBestPrediction m afun f fmax ∧
      eci m c afun jitter s v false = some (s', feasibility c afun cmu cvar * expectedExcess (afun mu) var (fmax + jitter)) := by
  obtain ⟨s', e, -, hb⟩ := refresh_ok hm hne (eci_cache hm hs)
  have hlen : ¬ m.samples.length < 1 := by have := List.length_pos_iff.2 hne; omega
  have hvar : 0 < var := Real.sqrt_pos.1 (lt_of_lt_of_le (by norm_num) hv)
  refine ⟨s', s'.fmax, hb, ?_⟩
  have hpf : pf c afun v = some (feasibility c afun cmu cvar) := by
    unfold pf feasibility
    rw [hc]
    simp only [Option.map_some, Option.some.injEq]
    by_cases hz : c.samples = [] ∨ √cvar < 1e-10
    · rw [if_pos hz, if_pos]
      rcases hz with h | h
      · right; rw [h]; simp
      · left; exact h
    · rw [if_neg hz, if_neg]
      · have : 0 < cvar := Real.sqrt_pos.1 (lt_of_lt_of_le (by norm_num) (not_lt.1 (not_or.1 hz).2))
        rw [probAtLeast_eq _ this]
      · rintro (h | h)
        · exact hz (Or.inr h)
        · exact hz (Or.inl (List.length_eq_zero_iff.1 (by omega)))
  unfold eci
  simp only [Bool.false_eq_true, if_false, hq, Option.bind_some]
  rw [if_neg (by rintro (h | h); exact absurd hv (not_le.2 h); exact hlen h), e]
  simp only [Option.bind_some, hpf, Option.map_some]
  rw [expectedExcess_eq _ hvar, sub_sub]

/-- **C63**: the probability of feasibility lies in `[0, 1]`. -/
theorem C63_feasibility_is_probability (c : AModel) (afun : List ℝ → ℝ) (mu : List ℝ) (var : ℝ) :
    0 ≤ feasibility c afun mu var ∧ feasibility c afun mu var ≤ 1 := by
  unfold feasibility
  split
  · norm_num
  · exact ⟨MeasureTheory.measureReal_nonneg, MeasureTheory.measureReal_le_one⟩

/-- **C63**: zero without data or without uncertainty of the objective model. -/
theorem C63_zero {m c : AModel} {afun : List ℝ → ℝ} {jitter : ℝ} {s : EiSt} {v mu : List ℝ} {var : ℝ} (hq : m.query v = some (mu, var))
    (h : m.samples = [] ∨ √var < 1e-10) : eci m c afun jitter s v false = some (s, 0) := by
  unfold eci
  simp only [Bool.false_eq_true, if_false, hq, Option.bind_some]
  rw [if_pos]
  rcases h with h | h
  · right; rw [h]; simp
  · left; exact h

/-- **C63**: `0 ≤ ECI ≤ EI`, for an `EI` and an `ECI` object used with the same model and aggregator. -/
theorem C63_between_zero_and_ei {m c : AModel} {afun : List ℝ → ℝ} {f : List ℝ → List ℝ} {jitter : ℝ} {s t : EiSt}
    (hm : ∀ x ∈ m.samples, m.mu x = some (f x)) (hs : EciReach m c afun jitter s) (ht : EiReach m afun jitter t) {v : List ℝ}
    {mu cmu : List ℝ} {var cvar : ℝ} (hq : m.query v = some (mu, var)) (hc : c.query v = some (cmu, cvar)) :
    ∃ s' t' y z, eci m c afun jitter s v false = some (s', y) ∧ ei m afun jitter t v false = some (t', z) ∧ 0 ≤ y ∧ y ≤ z := by
  by_cases hz : m.samples = [] ∨ √var < 1e-10
  · exact ⟨s, t, 0, 0, C63_zero hq hz, C53_zero hq hz, le_refl _, le_refl _⟩
  · obtain ⟨hz1, hz2⟩ := not_or.1 hz
    obtain ⟨s', fm, hb, e⟩ := C63_product hm hs hz1 hq hc (not_lt.1 hz2)
    obtain ⟨t', fm', hb', e'⟩ := C53_expected_improvement hm ht hz1 hq (not_lt.1 hz2)
    have := hb.unique hb'
    subst this
    obtain ⟨p0, p1⟩ := C63_feasibility_is_probability c afun cmu cvar
    have hx := expectedExcess_nonneg (afun mu) var (fm + jitter)
    exact ⟨s', t', _, _, e, e', mul_nonneg p0 hx, mul_le_of_le_one_left hx p1⟩

/-- the hypotheses of the GP theorems are met by a GP with three samples, and those of C63 by two such models; the noise makes every
variance positive -/
example : ∃ st, GpReach exEnv ⟨[[0, 1], [2, 3], [0, 1]], [[1], [5], [2]], true, true, true, true⟩ st ∧
    ∃ s' y, ei (Gp.view st) (fun l => l.getD 0 0) 0.1 (.new 3) [1, 1] false = some (s', y) ∧ 0 ≤ y := by
  obtain ⟨st, hr⟩ := exReach
  have hA : GpAbs.UpToDate ⟨[[0, 1], [2, 3], [0, 1]], [[1], [5], [2]], true, true, true, true⟩ := ⟨by simp, rfl, rfl, rfl⟩
  have hq := view_query exEnv_lawful hr hA exData [1, 1]
  have hm : ∀ x ∈ (Gp.view st).samples, (Gp.view st).mu x = some (predMean st _ 1 x) := fun x _ => view_mu exEnv_lawful hr hA exData x
  by_cases hv : √(predVar st ⟨[[0, 1], [2, 3], [0, 1]], [[1], [5], [2]], true, true, true, true⟩ [1, 1]) < 1e-10
  · exact ⟨st, hr, _, 0, C53_zero hq (Or.inr hv), le_refl _⟩
  · obtain ⟨s', fm, -, e⟩ := C53_gp exEnv_lawful hr hA exData (EiReach.new (afun := fun l => l.getD 0 0) (jitter := 0.1) 3) (not_lt.1 hv)
    exact ⟨st, hr, s', _, e, expectedExcess_nonneg _ _ _⟩

/-! ### C68 -/

/-- **C68** (the thread model is the function): the actions of one thread, run alone, do what one call of `EI` does. -/
theorem C68_alone_is_ei {m : AModel} {afun : List ℝ → ℝ} {jitter : ℝ} {v : List ℝ} {i : Nat} {body : List (EiMem → EiMem)}
    (hb : eiThread m afun jitter v i = some body) (s : EiSt) : ∃ s' y, ei m afun jitter s v false = some (s', y) ∧
      (runActions body (.start s)).nb = s'.nb ∧ (runActions body (.start s)).fmax = s'.fmax ∧ (runActions body (.start s)).ret i = some y := by
  unfold eiThread at hb
  unfold ei
  simp only [Bool.false_eq_true, if_false]
  cases hq : m.query v with
  | none => rw [hq] at hb; simp at hb
  | some r =>
    rw [hq] at hb
    simp only [Option.bind_some] at hb ⊢
    by_cases hz : √r.2 < 1e-10 ∨ m.samples.length < 1
    · rw [if_pos hz] at hb
      rw [if_pos hz]
      cases hb
      exact ⟨s, 0, rfl, rfl, rfl, by simp [runActions, aReturn]⟩
    · rw [if_neg hz] at hb
      rw [if_neg hz]
      unfold EiSt.refresh
      cases hr : rewards m afun m.samples with
      | none => rw [hr] at hb; simp at hb
      | some rs =>
        rw [hr] at hb
        simp only [Option.bind_some] at hb ⊢
        cases hx : maxElement rs with
        | none => rw [hx] at hb; simp at hb
        | some best =>
          rw [hx] at hb
          simp only [Option.map_some, Option.some.injEq] at hb
          subst hb
          by_cases hn : s.nb ≠ (m.samples.length : Int)
          · rw [if_pos hn]
            refine ⟨_, _, rfl, ?_, ?_, ?_⟩ <;> simp [runActions, EiMem.start, aTest, aSetNb, aSetMax, aReturn, hn]
          · rw [if_neg hn]
            refine ⟨_, _, rfl, ?_, ?_, ?_⟩ <;> simp [runActions, EiMem.start, aTest, aSetNb, aSetMax, aReturn, hn]

theorem interleaving_mem {σ : Type} {body : Nat → List (σ → σ)} {b n : Nat} {out : List (Nat × (σ → σ))} (h : IsInterleaving body b n out)
    {p : Nat × (σ → σ)} (hp : p ∈ out) : p.2 ∈ body p.1 := by
  obtain ⟨h1, h2⟩ := h2' h p hp
  rw [← h.1 p.1 h1 h2]
  exact List.mem_map.2 ⟨p, List.mem_filter.2 ⟨hp, by simp⟩, rfl⟩
where h2' {σ : Type} {body : Nat → List (σ → σ)} {b n : Nat} {out : List (Nat × (σ → σ))} (h : IsInterleaving body b n out)
    (p : Nat × (σ → σ)) (hp : p ∈ out) : b ≤ p.1 ∧ p.1 < b + n := h.2 p hp

/-- What the memory satisfies throughout a run that starts with an up-to-date cache. -/
structure Warm (s : EiSt) (M : EiMem) : Prop where
  nb : M.nb = s.nb
  fmax : M.fmax = s.fmax
  stale : ∀ i, M.stale i = false

/-- The actions of a thread, spelled out. -/
theorem thread_action {m : AModel} {afun : List ℝ → ℝ} {jitter : ℝ} {v : List ℝ} {i : Nat} {body : List (EiMem → EiMem)}
    (hb : eiThread m afun jitter v i = some body) : ∃ val : ℝ → ℝ, aReturn val i ∈ body ∧
      (∀ a ∈ body, a = aTest m.samples.length i ∨ a = aSetNb m.samples.length i ∨ (∃ best, a = aSetMax best i) ∨ a = aReturn val i) ∧
      (∀ s : EiSt, s.nb = (m.samples.length : Int) → ei m afun jitter s v false = some (s, val s.fmax)) := by
  unfold eiThread at hb
  cases hq : m.query v with
  | none => rw [hq] at hb; simp at hb
  | some r =>
    rw [hq] at hb
    simp only [Option.bind_some] at hb
    by_cases hz : √r.2 < 1e-10 ∨ m.samples.length < 1
    · rw [if_pos hz] at hb
      cases hb
      refine ⟨fun _ => 0, by simp, by simp, fun s _ => ?_⟩
      unfold ei
      simp only [Bool.false_eq_true, if_false, hq, Option.bind_some]
      rw [if_pos hz]
    · rw [if_neg hz] at hb
      cases hr : rewards m afun m.samples with
      | none => rw [hr] at hb; simp at hb
      | some rs =>
        rw [hr] at hb
        simp only [Option.bind_some] at hb
        cases hx : maxElement rs with
        | none => rw [hx] at hb; simp at hb
        | some best =>
          rw [hx] at hb
          simp only [Option.map_some, Option.some.injEq] at hb
          subst hb
          refine ⟨fun fmax => (afun r.1 - fmax - jitter) * capPhi ((afun r.1 - fmax - jitter) / √r.2) +
            √r.2 * phi ((afun r.1 - fmax - jitter) / √r.2), by simp, ?_, fun s hs => ?_⟩
          · intro a ha
            simp only [List.mem_cons, List.not_mem_nil, or_false] at ha
            rcases ha with h | h | h | h
            · exact Or.inl h
            · exact Or.inr (Or.inl h)
            · exact Or.inr (Or.inr (Or.inl ⟨_, h⟩))
            · exact Or.inr (Or.inr (Or.inr h))
          · unfold ei
            simp only [Bool.false_eq_true, if_false, hq, Option.bind_some]
            rw [if_neg hz]
            unfold EiSt.refresh
            rw [if_neg (not_not.2 hs)]
            rfl

/-- **C68**: once the cache is up to date (some call returned before the threads start), every interleaving gives every thread the value
a lone call gives, and leaves the cache as it is. -/
theorem C68_warm_cache_is_safe {m : AModel} {afun : List ℝ → ℝ} {jitter : ℝ} (pts : Nat → List ℝ) {body : Nat → List (EiMem → EiMem)} {n : Nat}
    (hb : ∀ i < n, eiThread m afun jitter (pts i) i = some (body i)) {s : EiSt} (hs : s.nb = (m.samples.length : Int))
    {out : List (Nat × (EiMem → EiMem))} (ho : IsInterleaving body 0 n out) :
    (runTagged out (.start s)).nb = s.nb ∧ (runTagged out (.start s)).fmax = s.fmax ∧
      ∀ i < n, ∃ y, ei m afun jitter s (pts i) false = some (s, y) ∧ (runTagged out (.start s)).ret i = some y := by
  have hmem : ∀ p ∈ out, p.1 < n ∧ p.2 ∈ body p.1 := fun p hp => ⟨by have := (ho.2 p hp).2; omega, interleaving_mem ho hp⟩
  -- one action keeps the invariant
  have hstep : ∀ (i : Nat) (a : EiMem → EiMem), i < n → a ∈ body i → ∀ M, Warm s M → Warm s (a M) := by
    intro i a hi ha M hM
    obtain ⟨val, -, hc, -⟩ := thread_action (hb i hi)
    rcases hc a ha with h | h | ⟨best, h⟩ | h <;> subst h
    · refine ⟨hM.nb, hM.fmax, fun j => ?_⟩
      simp only [aTest]
      split
      · rw [hM.nb, hs]; simp
      · exact hM.stale j
    · unfold aSetNb; rw [hM.stale i]; exact hM
    · unfold aSetMax; rw [hM.stale i]; exact hM
    · exact ⟨hM.nb, hM.fmax, hM.stale⟩
  have hrun : ∀ (l : List (Nat × (EiMem → EiMem))), (∀ p ∈ l, p.1 < n ∧ p.2 ∈ body p.1) → ∀ M, Warm s M → Warm s (runTagged l M) := by
    intro l
    induction l with
    | nil => intro _ M hM; exact hM
    | cons p l ih =>
      intro hl M hM
      exact ih (fun q hq => hl q (by simp [hq])) _ (hstep p.1 p.2 (hl p (by simp)).1 (hl p (by simp)).2 M hM)
  have h0 : Warm s (.start s) := ⟨rfl, rfl, fun _ => rfl⟩
  refine ⟨(hrun out hmem _ h0).nb, (hrun out hmem _ h0).fmax, fun i hi => ?_⟩
  obtain ⟨val, hin, hc, hv⟩ := thread_action (hb i hi)
  refine ⟨val s.fmax, hv s hs, ?_⟩
  -- once thread `i` has returned, its value stays
  have hkeep : ∀ (l : List (Nat × (EiMem → EiMem))), (∀ p ∈ l, p.1 < n ∧ p.2 ∈ body p.1) → ∀ M, Warm s M → M.ret i = some (val s.fmax) →
      (runTagged l M).ret i = some (val s.fmax) := by
    intro l
    induction l with
    | nil => intro _ M _ h; exact h
    | cons p l ih =>
      intro hl M hM h
      obtain ⟨hp1, hp2⟩ := hl p (by simp)
      refine ih (fun q hq => hl q (by simp [hq])) _ (hstep p.1 p.2 hp1 hp2 M hM) ?_
      obtain ⟨val', -, hc', hv'⟩ := thread_action (hb p.1 hp1)
      rcases hc' p.2 hp2 with e | e | ⟨best, e⟩ | e <;> rw [e]
      · exact h
      · unfold aSetNb; split <;> exact h
      · unfold aSetMax; split <;> exact h
      · simp only [aReturn]
        by_cases hpi : i = p.1
        · rw [if_pos hpi]
          have h1 := hv' s hs
          rw [← hpi, hv s hs] at h1
          simp only [Option.some.injEq, Prod.mk.injEq, true_and] at h1
          rw [hM.fmax, h1]
        · rw [if_neg hpi]; exact h
  have hfirst : ∀ (l : List (Nat × (EiMem → EiMem))), (∀ p ∈ l, p.1 < n ∧ p.2 ∈ body p.1) → (i, aReturn val i) ∈ l → ∀ M, Warm s M →
      (runTagged l M).ret i = some (val s.fmax) := by
    intro l
    induction l with
    | nil => intro _ h; simp at h
    | cons p l ih =>
      intro hl h M hM
      have hw := hstep p.1 p.2 (hl p (by simp)).1 (hl p (by simp)).2 M hM
      rcases List.mem_cons.1 h with h | h
      · refine hkeep l (fun q hq => hl q (by simp [hq])) _ hw ?_
        rw [← h]
        simp [aReturn, hM.fmax]
      · exact ih (fun q hq => hl q (by simp [hq])) h _ hw
  refine hfirst out hmem ?_ _ h0
  have := ho.1 i (by omega) (by omega)
  rw [← this] at hin
  obtain ⟨p, hp, e⟩ := List.mem_map.1 hin
  obtain ⟨hp1, hp2⟩ := List.mem_filter.1 hp
  have : p = (i, aReturn val i) := Prod.ext (by simpa using hp2) e
  rwa [← this]

/-- The actions of a thread on `oneSample`. -/
theorem oneSample_thread (i : Nat) : eiThread (oneSample 0) (fun l => l.getD 0 0) 0 [1] i = some [aTest 1 i, aSetNb 1 i, aSetMax 0 i,
    aReturn (fun fmax => (0 - fmax - 0) * capPhi ((0 - fmax - 0) / √1) + √1 * phi ((0 - fmax - 0) / √1)) i] := by
  have hn : ¬ ((√(1 : ℝ) < 1e-10) ∨ [[(0 : ℝ)]].length < 1) := by
    rw [Real.sqrt_one]; rintro (h | h)
    · norm_num at h
    · simp at h
  unfold eiThread oneSample
  simp only [Option.bind_some]
  rw [if_neg hn]
  rfl

/-- **C68** fails with a fresh object: two threads evaluate the same point, and the second returns a value computed from the uninitialised
`_f_max` (here 5), because `_nb_samples` is written before `_f_max`. -/
theorem C68_fresh_object_races : ∃ body out, (∀ i < 2, eiThread (oneSample 0) (fun l => l.getD 0 0) 0 [1] i = some (body i)) ∧
    IsInterleaving body 0 2 out ∧ ∃ s' y y', ei (oneSample 0) (fun l => l.getD 0 0) 0 (.new 5) [1] false = some (s', y) ∧
      (runTagged out (.start (.new 5))).ret 0 = some y ∧ (runTagged out (.start (.new 5))).ret 1 = some y' ∧ y' ≠ y := by
  obtain ⟨val, hval⟩ : ∃ val : ℝ → ℝ, val = fun fmax => (0 - fmax - 0) * capPhi ((0 - fmax - 0) / √1) + √1 * phi ((0 - fmax - 0) / √1) := ⟨_, rfl⟩
  have hb := oneSample_thread
  rw [← hval] at hb
  have hei := C68_alone_is_ei (hb 0) (.new 5)
  refine ⟨fun i => [aTest 1 i, aSetNb 1 i, aSetMax 0 i, aReturn val i],
    [(0, aTest 1 0), (0, aSetNb 1 0), (1, aTest 1 1), (1, aSetNb 1 1), (1, aSetMax 0 1), (1, aReturn val 1), (0, aSetMax 0 0), (0, aReturn val 0)],
    fun i _ => hb i, ?_, ?_⟩
  · constructor
    · intro i h1 h2
      have : i = 0 ∨ i = 1 := by omega
      rcases this with h | h <;> subst h <;> rfl
    · intro p hp
      simp only [List.mem_cons, List.not_mem_nil, or_false] at hp
      rcases hp with h | h | h | h | h | h | h | h <;> subst h <;> simp
  · obtain ⟨s', y, e1, -, -, e2⟩ := hei
    have hy : y = val 0 := by
      have : (runActions [aTest 1 0, aSetNb 1 0, aSetMax 0 0, aReturn val 0] (EiMem.start (.new 5))).ret 0 = some (val 0) := by
        simp [runActions, EiMem.start, EiSt.new, aTest, aSetNb, aSetMax, aReturn]
      rw [this] at e2
      exact (Option.some.inj e2).symm
    refine ⟨s', y, val 5, e1, ?_, ?_, ?_⟩
    · rw [hy]; simp [runTagged, runActions, EiMem.start, EiSt.new, aTest, aSetNb, aSetMax, aReturn]
    · simp [runTagged, runActions, EiMem.start, EiSt.new, aTest, aSetNb, aSetMax, aReturn]
    · rw [hy, hval]
      simp only [Real.sqrt_one, div_one, sub_zero, zero_mul, zero_add, one_mul, zero_sub]
      apply ne_of_lt
      have h1 := erfc_pos (-5)
      have h2 : phi (-5) ≤ phi 0 := by
        unfold phi
        apply div_le_div_of_nonneg_right _ (Real.sqrt_nonneg _)
        apply Real.exp_le_exp.2
        norm_num
      linarith

/-- the hypotheses of `C68_warm_cache_is_safe`: two threads, an up-to-date cache -/
example : ∃ body : Nat → List (EiMem → EiMem), (∀ i < 2, eiThread (oneSample 0) (fun l => l.getD 0 0) 0 [1] i = some (body i)) ∧
    (⟨1, 0⟩ : EiSt).nb = ((oneSample 0).samples.length : Int) := ⟨_, fun i _ => oneSample_thread i, rfl⟩

end Limbo
