import Mathlib.Data.List.Sort
import Verif.Lemmas.EhviErr
import Verif.Lemmas.XtLaws
import Verif.Spec.Multi

/-! C88, C89: expected hypervolume improvement. -/

namespace Limbo

open MeasureTheory ProbabilityTheory Ehvi Acqui

/-- `std::sort` by the first objective exists. -/
theorem sortsByFirst_exists : ∃ sort, SortsByFirst sort := by
  classical
  refine ⟨fun P => P.insertionSort fun p q => p.1 ≤ q.1, fun P => List.perm_insertionSort _ P, fun P => ?_⟩
  haveI : Std.Total fun p q : ℝ × ℝ => p.1 ≤ q.1 := ⟨fun p q => le_total p.1 q.1⟩
  haveI : IsTrans (ℝ × ℝ) fun p q => p.1 ≤ q.1 := ⟨fun _ _ _ => le_trans⟩
  exact List.pairwise_insertionSort _ P

/-- C88: with exact constants `ehvi2d` is the expected hypervolume improvement. -/
theorem C88_ehvi2d {sort : List (ℝ × ℝ) → List (ℝ × ℝ)} (hsort : SortsByFirst sort) (P : List (ℝ × ℝ)) (r mu s : ℝ × ℝ)
    (hn : MutuallyNonDominated P) (hr : ∀ p ∈ P, r.1 ≤ p.1 ∧ r.2 ≤ p.2) (h1 : 0 < s.1) (h2 : 0 < s.2) :
    ehvi2d sort Consts.exact P r mu s = some (expectedHvImprovement r P mu (s.1 ^ 2, s.2 ^ 2)) :=
  ehvi2d_eq hsort hn hr h1 h2

/-- C88: with the eleven-digit constants of the source it differs by a bounded amount. -/
theorem C88_ehvi2d_source {sort : List (ℝ × ℝ) → List (ℝ × ℝ)} (hsort : SortsByFirst sort) (P : List (ℝ × ℝ)) (r mu s D : ℝ × ℝ)
    (hn : MutuallyNonDominated P) (hr : ∀ p ∈ P, r.1 ≤ p.1 ∧ r.2 ≤ p.2) (h1 : 0 < s.1) (h2 : 0 < s.2)
    (hD : ∀ p ∈ r :: P, |p.1 - mu.1| ≤ D.1 ∧ |p.2 - mu.2| ≤ D.2) :
    ∃ v, ehvi2d sort Consts.source P r mu s = some v ∧ |v - expectedHvImprovement r P mu (s.1 ^ 2, s.2 ^ 2)|
      ≤ ((P.length + 1) * (P.length + 2) / 2 : ℝ) * (25e-11 * ((s.1 + D.1) * (s.2 + D.2))) :=
  ehvi2d_err hsort hn hr h1 h2 hD

/-- A front of two points above `(-11, -11)`. -/
theorem ehvi_ex : MutuallyNonDominated [(3, 1), (1, 2)] ∧ (∀ p ∈ [((3 : ℝ), (1 : ℝ)), (1, 2)], (-11 : ℝ) ≤ p.1 ∧ (-11 : ℝ) ≤ p.2) ∧
    ∀ p ∈ ((-11 : ℝ), (-11 : ℝ)) :: [(3, 1), (1, 2)], |p.1 - 0| ≤ (11 : ℝ) ∧ |p.2 - 0| ≤ (11 : ℝ) := by
  refine ⟨?_, ?_, ?_⟩
  · intro p hp q hq
    simp only [List.mem_cons, List.not_mem_nil, or_false] at hp hq
    rcases hp with rfl | rfl <;> rcases hq with rfl | rfl <;> norm_num
  · intro p hp
    simp only [List.mem_cons, List.not_mem_nil, or_false] at hp
    rcases hp with rfl | rfl <;> norm_num
  · intro p hp
    simp only [List.mem_cons, List.not_mem_nil, or_false] at hp
    rcases hp with rfl | rfl | rfl <;> norm_num [abs_le]

example : ∃ sort, ehvi2d sort Consts.exact [(3, 1), (1, 2)] (-11, -11) (0, 0) (1, 2)
    = some (expectedHvImprovement (-11, -11) [(3, 1), (1, 2)] (0, 0) (1 ^ 2, 2 ^ 2)) :=
  let ⟨sort, h⟩ := sortsByFirst_exists
  ⟨sort, C88_ehvi2d h _ _ _ _ ehvi_ex.1 ehvi_ex.2.1 (by norm_num) (by norm_num)⟩

example : ∃ sort v, ehvi2d sort Consts.source [(3, 1), (1, 2)] (-11, -11) (0, 0) (1, 2) = some v ∧
    |v - expectedHvImprovement (-11, -11) [(3, 1), (1, 2)] (0, 0) (1 ^ 2, 2 ^ 2)| ≤ 1e-6 := by
  obtain ⟨sort, h⟩ := sortsByFirst_exists
  obtain ⟨v, e, hv⟩ := C88_ehvi2d_source h _ _ (0, 0) (1, 2) (11, 11) ehvi_ex.1 ehvi_ex.2.1 (by norm_num) (by norm_num) ehvi_ex.2.2
  refine ⟨sort, v, e, hv.trans ?_⟩
  norm_num

/-- One empty front, the mean on the reference point. -/
theorem expected_nil (r s : ℝ × ℝ) (h1 : 0 < s.1) (h2 : 0 < s.2) : expectedHvImprovement r [] r (s.1 ^ 2, s.2 ^ 2) = s.1 * s.2 * phi 0 ^ 2 := by
  obtain ⟨sort, h⟩ := sortsByFirst_exists
  rw [expected_sum h (fun p hp => absurd hp (by simp)) (fun p hp => absurd hp (by simp)) h1 h2, List.perm_nil.mp (h.perm [])]
  simp [cvc, cellSum, gridCell, Xl, Yl, xu, yu, smin, exipsi, pdfAt, cdfAt, gausspdf_exact]
  rw [max_eq_right (by have := (phi_pos 0).le; positivity)]
  ring

/-- C88: with a point below the reference point the value is wrong: the hypotheses above are needed. -/
theorem C88_below_reference {sort : List (ℝ × ℝ) → List (ℝ × ℝ)} (hsort : SortsByFirst sort) :
    MutuallyNonDominated [(-1, -1)] ∧
    ∃ v, ehvi2d sort Consts.exact [(-1, -1)] (0, 0) (0, 0) (1, 1) = some v ∧ expectedHvImprovement (0, 0) [(-1, -1)] (0, 0) (1 ^ 2, 1 ^ 2) < v := by
  refine ⟨fun p hp q hq _ _ => by rw [List.mem_singleton.mp hp, List.mem_singleton.mp hq], _, ehvi2d_sum _ _ _ _ _ _, ?_⟩
  have hs : sort [((-1 : ℝ), (-1 : ℝ))] = [(-1, -1)] := List.perm_singleton.mp (hsort.perm _)
  have he : expectedHvImprovement (0, 0) [(-1, -1)] (0, 0) (1 ^ 2, 1 ^ 2) = expectedHvImprovement (0, 0) [] (0, 0) (1 ^ 2, 1 ^ 2) := by
    have hd : Set.Icc (planePt (0, 0)) (planePt (-1, -1)) = ∅ := by
      refine Set.Icc_eq_empty fun h => ?_
      have := h 0
      norm_num [planePt] at this
    unfold expectedHvImprovement hvImprovement dominatedVolume
    simp [hd]
  have hnil := expected_nil (0, 0) (1, 1) one_pos one_pos
  simp only at hnil
  rw [hs, he, hnil]
  have hA : 1 ≤ exipsi Consts.exact (-1) ((-1 : ℝ) : WithTop ℝ) 0 1 - exipsi Consts.exact (-1) ⊤ 0 1 := by
    rw [← int_ind_mul 0 one_pos]
    have h0 : ∫ x, (x - (-1 : ℝ)) ∂(gaussianReal 0 ((1 : ℝ) ^ 2).toNNReal) = 1 := by
      rw [integral_sub (id_integrable 0 1) (integrable_const _), integral_id_gaussianReal]
      simp
    refine h0.symm.le.trans ?_
    refine integral_mono (f := fun x => x - (-1 : ℝ)) ((id_integrable 0 1).sub (integrable_const _)) (ind_mul_integrable 0 1 _ _) fun x => ?_
    show x - -1 ≤ ind ((-1 : ℝ) : WithTop ℝ) x * (x - -1)
    by_cases hx : (-1 : ℝ) < x
    · rw [ind_lt hx, one_mul]
    · rw [ind_ge (not_lt.mp hx), zero_mul]
      linarith [not_lt.mp hx]
  have hB : phi 0 / 3 ≤ exipsi Consts.exact 0 ((0 : ℝ) : WithTop ℝ) 0 1 - exipsi Consts.exact 0 ((-1 : ℝ) : WithTop ℝ) 0 1 := by
    have h1 : phi (-1) = phi 0 * Real.exp (-(1 / 2)) := by
      unfold phi
      norm_num
      ring
    simp only [exipsi, pdfAt, gausspdf_exact]
    norm_num
    rw [h1, Real.exp_neg]
    have : (Real.exp (1 / 2))⁻¹ ≤ 2 / 3 := by
      rw [inv_le_comm₀ (Real.exp_pos _) (by norm_num)]
      have := Real.add_one_le_exp (1 / 2 : ℝ)
      norm_num at *
      linarith
    nlinarith [phi_pos 0]
  set A := exipsi Consts.exact (-1) ((-1 : ℝ) : WithTop ℝ) 0 1 - exipsi Consts.exact (-1) ⊤ 0 1 with hAd
  set B := exipsi Consts.exact 0 ((0 : ℝ) : WithTop ℝ) 0 1 - exipsi Consts.exact 0 ((-1 : ℝ) : WithTop ℝ) 0 1 with hBd
  have c00 : cvc Consts.exact (Xl 0 [((-1 : ℝ), (-1 : ℝ))]) (Yl 0 [((-1 : ℝ), (-1 : ℝ))]) 1 (0, 0) (1, 1) 0 0 = B * A := by
    simp [cvc, cellSum, gridCell, Xl, Yl, xu, yu, smin, hAd, hBd]
  have c11 : cvc Consts.exact (Xl 0 [((-1 : ℝ), (-1 : ℝ))]) (Yl 0 [((-1 : ℝ), (-1 : ℝ))]) 1 (0, 0) (1, 1) 1 1 = A * B := by
    simp [cvc, cellSum, gridCell, Xl, Yl, xu, yu, smin, hAd, hBd]
  have hp := phi_pos 0
  have hp2 : phi 0 ≤ 1 / 2 := by
    have := (pdfAt_range 0 1 ((0 : ℝ) : WithTop ℝ)).2
    simpa [pdfAt, gausspdf_exact] using this
  have hAB : phi 0 / 3 ≤ A * B := by nlinarith
  have e : ∀ F : ℕ → ℕ → ℝ, ∑ a ∈ Finset.range 2, ∑ m ∈ Finset.Ico a 2, max 0 (F a m) = (max 0 (F 0 0) + max 0 (F 0 1)) + max 0 (F 1 1) := by
    intro F
    simp [Finset.sum_range_succ, Finset.sum_Ico_eq_sum_range]
  show _ < ∑ a ∈ Finset.range 2, ∑ m ∈ Finset.Ico a 2, max 0 (cvc Consts.exact (Xl 0 [((-1 : ℝ), (-1 : ℝ))]) (Yl 0 [((-1 : ℝ), (-1 : ℝ))]) 1 (0, 0) (1, 1) a m)
  rw [e, c00, c11, mul_comm B A, max_eq_right (by linarith)]
  have := le_max_left (0 : ℝ) (cvc Consts.exact (Xl 0 [((-1 : ℝ), (-1 : ℝ))]) (Yl 0 [((-1 : ℝ), (-1 : ℝ))]) 1 (0, 0) (1, 1) 0 1)
  nlinarith

example : ∃ sort : List (ℝ × ℝ) → List (ℝ × ℝ), SortsByFirst sort := sortsByFirst_exists

/-- C89: the population the EHVI optimizer passes is mutually non-dominated. -/
theorem C89_population (S O : List (List XR)) (front : List (PPoint XR)) (pop : List (ℝ × ℝ)) (h : ParetoOf 2 S O front)
    (hpop : List.Forall₂ (fun p q => p.2.1 = [XR.fin q.1, XR.fin q.2]) front pop) : MutuallyNonDominated pop := by
  have hmem : ∀ q ∈ pop, ∃ p ∈ front, p.2.1 = [XR.fin q.1, XR.fin q.2] := by
    intro q hq
    obtain ⟨i, hi, rfl⟩ := List.getElem_of_mem hq
    have hl := hpop.length_eq
    refine ⟨front[i], List.getElem_mem _, ?_⟩
    exact (List.forall₂_iff_get.mp hpop).2 i (by omega) hi
  intro p hp q hq h1 h2
  obtain ⟨⟨x, y, z⟩, hf, hy⟩ := hmem p hp
  obtain ⟨⟨x', y', z'⟩, hf', hy'⟩ := hmem q hq
  simp only at hy hy'
  subst hy hy'
  have hnd := ((h.2.1 _ _).mp ⟨z, hf⟩).2
  have hO := List.of_mem_zip ((h.2.1 _ _).mp ⟨z', hf'⟩).1
  by_contra hne
  refine hnd _ hO.2 ⟨?_, ?_⟩
  · intro i a b ha hb
    rcases i with _ | _ | i
    · simp at ha hb; subst ha hb; exact (XR.le_fin _ _).mpr h1
    · simp at ha hb; subst ha hb; exact (XR.le_fin _ _).mpr h2
    · simp at ha
  · by_cases e : p.1 = q.1
    · have : p.2 < q.2 := lt_of_le_of_ne h2 fun e2 => hne (Prod.ext e e2)
      exact ⟨1, XR.fin q.2, XR.fin p.2, rfl, rfl, (XR.lt_fin _ _).mpr this⟩
    · exact ⟨0, XR.fin q.1, XR.fin p.1, rfl, rfl, (XR.lt_fin _ _).mpr (lt_of_le_of_ne h1 e)⟩

/-- Three evaluations, of which two are not dominated. -/
example : ParetoOf 2 [[XR.fin 0], [XR.fin 1], [XR.fin 2]] [[XR.fin 3, XR.fin 1], [XR.fin 0, XR.fin 0], [XR.fin 1, XR.fin 2]]
    [([XR.fin 0], [XR.fin 3, XR.fin 1], List.replicate 2 (lit 0)), ([XR.fin 2], [XR.fin 1, XR.fin 2], List.replicate 2 (lit 0))] ∧
    MutuallyNonDominated [(3, 1), (1, 2)] := by
  have hP : ParetoOf 2 [[XR.fin 0], [XR.fin 1], [XR.fin 2]] [[XR.fin 3, XR.fin 1], [XR.fin 0, XR.fin 0], [XR.fin 1, XR.fin 2]]
      [([XR.fin 0], [XR.fin 3, XR.fin 1], List.replicate 2 (lit 0)), ([XR.fin 2], [XR.fin 1, XR.fin 2], List.replicate 2 (lit 0))] := by
    have nd : ∀ a b c d : ℝ, (a < c ∨ b < d) → ¬ Dominates [XR.fin a, XR.fin b] [XR.fin c, XR.fin d] := by
      intro a b c d hh hd
      have h0 := (XR.le_fin _ _).mp (hd.1 0 _ _ rfl rfl)
      have h1 := (XR.le_fin _ _).mp (hd.1 1 _ _ rfl rfl)
      rcases hh with hh | hh <;> linarith
    have nr : ∀ a b : ℝ, ¬ Dominates [XR.fin a, XR.fin b] [XR.fin a, XR.fin b] := by
      rintro a b ⟨-, i, x, y, hx, hy, hl⟩
      rw [hx] at hy
      obtain rfl := Option.some.inj hy
      rcases i with _ | _ | i
      · simp at hx; subst hx; exact lt_irrefl _ ((XR.lt_fin _ _).mp hl)
      · simp at hx; subst hx; exact lt_irrefl _ ((XR.lt_fin _ _).mp hl)
      · simp at hx
    refine ⟨?_, ?_, ?_⟩
    · intro x y z hz
      simp only [List.mem_cons, Prod.mk.injEq, List.not_mem_nil, or_false] at hz
      rcases hz with ⟨-, -, rfl⟩ | ⟨-, -, rfl⟩ <;> rfl
    · intro x y
      constructor
      · rintro ⟨z, hz⟩
        simp only [List.mem_cons, Prod.mk.injEq, List.not_mem_nil, or_false] at hz
        rcases hz with ⟨rfl, rfl, -⟩ | ⟨rfl, rfl, -⟩
        · refine ⟨by simp, fun y' hy' => ?_⟩
          simp only [List.mem_cons, List.not_mem_nil, or_false] at hy'
          rcases hy' with rfl | rfl | rfl
          · exact nr _ _
          · exact nd _ _ _ _ (by norm_num)
          · exact nd _ _ _ _ (by norm_num)
        · refine ⟨by simp, fun y' hy' => ?_⟩
          simp only [List.mem_cons, List.not_mem_nil, or_false] at hy'
          rcases hy' with rfl | rfl | rfl
          · exact nd _ _ _ _ (by norm_num)
          · exact nd _ _ _ _ (by norm_num)
          · exact nr _ _
      · rintro ⟨hm, hd⟩
        simp only [List.zip_cons_cons, List.zip_nil_right, List.mem_cons, Prod.mk.injEq, List.not_mem_nil, or_false] at hm
        rcases hm with ⟨rfl, rfl⟩ | ⟨rfl, rfl⟩ | ⟨rfl, rfl⟩
        · exact ⟨_, List.mem_cons_self⟩
        · refine absurd ?_ (hd [XR.fin 1, XR.fin 2] (by simp))
          refine ⟨?_, 0, _, _, rfl, rfl, (XR.lt_fin _ _).mpr (by norm_num)⟩
          intro i a b ha hb
          rcases i with _ | _ | i
          · simp at ha hb; subst ha hb; exact (XR.le_fin _ _).mpr (by norm_num)
          · simp at ha hb; subst ha hb; exact (XR.le_fin _ _).mpr (by norm_num)
          · simp at ha
        · exact ⟨_, List.mem_cons_of_mem _ List.mem_cons_self⟩
    · classical
      refine ⟨fun p => decide (p.1 ≠ [XR.fin 1]), ?_⟩
      have e : ∀ a b : ℝ, XR.fin a = XR.fin b ↔ a = b := fun a b => ⟨fun h => by injection h, fun h => by rw [h]⟩
      simp [e]
  exact ⟨hP, C89_population _ _ _ [(3, 1), (1, 2)] hP (by simp)⟩

/-- C89: the acquisition function uses the predicted variances as if they were standard deviations. -/
theorem C89_variance_as_deviation {sort : List (ℝ × ℝ) → List (ℝ × ℝ)} (hsort : SortsByFirst sort) (pop : List (ℝ × ℝ)) (ref : ℝ × ℝ)
    (mu0 mu1 var0 var1 : List ℝ → ℝ) (v : List ℝ) (hn : MutuallyNonDominated pop) (hr : ∀ p ∈ pop, ref.1 ≤ p.1 ∧ ref.2 ≤ p.2)
    (h0 : 0 < var0 v) (h1 : 0 < var1 v) :
    acquiEhvi sort Consts.exact pop ref mu0 mu1 var0 var1 v
      = some (expectedHvImprovement ref pop (mu0 v, mu1 v) (var0 v ^ 2, var1 v ^ 2)) :=
  C88_ehvi2d hsort pop ref (mu0 v, mu1 v) (var0 v, var1 v) hn hr h0 h1

example : ∃ sort, acquiEhvi sort Consts.exact [(3, 1), (1, 2)] (-11, -11) (fun _ => 0) (fun _ => 0) (fun _ => 1) (fun _ => 2) [0]
    = some (expectedHvImprovement (-11, -11) [(3, 1), (1, 2)] (0, 0) (1 ^ 2, 2 ^ 2)) :=
  let ⟨sort, h⟩ := sortsByFirst_exists
  ⟨sort, C89_variance_as_deviation h _ _ _ _ _ _ [0] ehvi_ex.1 ehvi_ex.2.1 (by norm_num) (by norm_num)⟩

/-- C89: so it is not the expected hypervolume improvement of the models' predictions. -/
theorem C89_not_expected_improvement {sort : List (ℝ × ℝ) → List (ℝ × ℝ)} (hsort : SortsByFirst sort) :
    ¬ ∀ (pop : List (ℝ × ℝ)) (ref : ℝ × ℝ) (mu0 mu1 var0 var1 : List ℝ → ℝ) (v : List ℝ), MutuallyNonDominated pop →
      (∀ p ∈ pop, ref.1 ≤ p.1 ∧ ref.2 ≤ p.2) → 0 < var0 v → 0 < var1 v →
      acquiEhvi sort Consts.exact pop ref mu0 mu1 var0 var1 v = some (expectedHvImprovement ref pop (mu0 v, mu1 v) (var0 v, var1 v)) := by
  intro h
  have hn : MutuallyNonDominated ([] : List (ℝ × ℝ)) := fun p hp => absurd hp (by simp)
  have e := h [] (-11, -11) (fun _ => -11) (fun _ => -11) (fun _ => 4) (fun _ => 4) [] hn (by simp) (by norm_num) (by norm_num)
  rw [C89_variance_as_deviation hsort [] (-11, -11) (fun _ => -11) (fun _ => -11) (fun _ => 4) (fun _ => 4) [] hn (by simp) (by norm_num) (by norm_num)] at e
  have e1 := expected_nil (-11, -11) (4, 4) (by norm_num) (by norm_num)
  have e2 := expected_nil (-11, -11) (2, 2) (by norm_num) (by norm_num)
  have e3 := Option.some.inj e
  norm_num at e1 e2 e3
  rw [e1, e2] at e3
  have := phi_pos 0
  nlinarith [pow_pos this 2]

end Limbo
