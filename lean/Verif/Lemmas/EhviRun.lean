import Mathlib.Data.List.GetD
import Verif.Lemmas.EhviInt

/-! The loops of `ehvi2d` add up the expected gains of the cells. -/

namespace Limbo.Ehvi

open MeasureTheory ProbabilityTheory Finset

/-- Cell `a ≤ j` of the grid. -/
noncomputable def gridCell (X Y : ℕ → ℝ) (k a j : ℕ) : Cell := ⟨(X a, Y j), (X j, Y a), xu X k j, yu Y a⟩

/-- Its expected contribution. -/
noncomputable def cv (X Y : ℕ → ℝ) (k : ℕ) (mu s : ℝ × ℝ) (a j : ℕ) : ℝ := cellSum Consts.exact (gridCell X Y k a j) mu s (smin X Y a j)

variable {X Y : ℕ → ℝ} {k : ℕ} {mu s : ℝ × ℝ}

theorem cv_eq (h1 : 0 < s.1) (h2 : 0 < s.2) (a j : ℕ) :
    ∫ x, ∫ y, (ind (X j : ℝ) x - ind (xu X k j) x) * ((ind (Y a : ℝ) y - ind (yu Y a) y) * ((x - X a) * (y - Y j) - smin X Y a j))
      ∂(gaussianReal mu.2 (s.2 ^ 2).toNNReal) ∂(gaussianReal mu.1 (s.1 ^ 2).toNNReal) = cv X Y k mu s a j := by
  simp only [integral_const_mul, int_cell_y mu.2 h2]
  rw [show (fun x => (ind (X j : ℝ) x - ind (xu X k j) x) * ((x - X a) *
        (exipsi Consts.exact (Y j) (Y a : ℝ) mu.2 s.2 - exipsi Consts.exact (Y j) (yu Y a) mu.2 s.2)
        - smin X Y a j * (cdfAt Consts.exact mu.2 s.2 (yu Y a) - cdfAt Consts.exact mu.2 s.2 (Y a : ℝ))))
      = fun x => (ind (X j : ℝ) x - ind (xu X k j) x) * (
        (exipsi Consts.exact (Y j) (Y a : ℝ) mu.2 s.2 - exipsi Consts.exact (Y j) (yu Y a) mu.2 s.2) * (x - X a)
        - smin X Y a j * (cdfAt Consts.exact mu.2 s.2 (yu Y a) - cdfAt Consts.exact mu.2 s.2 (Y a : ℝ))) from by funext x; ring]
  rw [int_cell_y mu.1 h1]
  simp only [cv, cellSum, gridCell]
  ring

theorem area_nonneg (x y : ℝ) : 0 ≤ area X Y k x y := by
  refine sum_nonneg fun m _ => mul_nonneg ?_ (le_max_left _ _)
  unfold wid
  split <;> exact le_max_left _ _

theorem cv_nonneg (h : Grid X Y k) (h1 : 0 < s.1) (h2 : 0 < s.2) {a j : ℕ} (haj : a ≤ j) (hj : j ≤ k) : 0 ≤ cv X Y k mu s a j := by
  rw [← cv_eq h1 h2]
  refine integral_nonneg fun x => integral_nonneg fun y => ?_
  show 0 ≤ (ind (X j : ℝ) x - ind (xu X k j) x) * ((ind (Y a : ℝ) y - ind (yu Y a) y) * ((x - X a) * (y - Y j) - smin X Y a j))
  rcases cellx h hj x with hx | ⟨hx, hx1, hx2⟩
  · rw [hx, zero_mul]
  · rcases celly h (haj.trans hj) y with hy | ⟨hy, hy1, hy2⟩
    · rw [hy, zero_mul, mul_zero]
    · rw [hx, hy, one_mul, one_mul, ← area_cell h haj hj hx1 hx2 hy1 hy2]
      exact area_nonneg x y

theorem area_expected (h : Grid X Y k) (h1 : 0 < s.1) (h2 : 0 < s.2) :
    ∫ x, ∫ y, area X Y k x y ∂(gaussianReal mu.2 (s.2 ^ 2).toNNReal) ∂(gaussianReal mu.1 (s.1 ^ 2).toNNReal)
      = ∑ a ∈ range (k + 1), ∑ j ∈ Ico a (k + 1), cv X Y k mu s a j := by
  have hy : ∀ x : ℝ, ∀ a j : ℕ, Integrable (fun y => (ind (X j : ℝ) x - ind (xu X k j) x) *
      ((ind (Y a : ℝ) y - ind (yu Y a) y) * ((x - X a) * (y - Y j) - smin X Y a j))) (gaussianReal mu.2 (s.2 ^ 2).toNNReal) :=
    fun x a j => (cell_integrable mu.2 _ _ _ _ _).const_mul _
  have hx : ∀ a j : ℕ, Integrable (fun x => ∫ y, (ind (X j : ℝ) x - ind (xu X k j) x) *
      ((ind (Y a : ℝ) y - ind (yu Y a) y) * ((x - X a) * (y - Y j) - smin X Y a j)) ∂(gaussianReal mu.2 (s.2 ^ 2).toNNReal))
      (gaussianReal mu.1 (s.1 ^ 2).toNNReal) := by
    intro a j
    simp only [integral_const_mul, int_cell_y mu.2 h2]
    refine (cell_integrable mu.1 (X j : ℝ) (xu X k j) (X a)
      (exipsi Consts.exact (Y j) (Y a : ℝ) mu.2 s.2 - exipsi Consts.exact (Y j) (yu Y a) mu.2 s.2)
      (smin X Y a j * (cdfAt Consts.exact mu.2 s.2 (yu Y a) - cdfAt Consts.exact mu.2 s.2 (Y a : ℝ)))).congr
      (Filter.Eventually.of_forall fun x => ?_)
    show _ = _
    ring
  simp only [area_cells h]
  have e : ∀ x : ℝ, ∫ y, (∑ a ∈ range (k + 1), ∑ j ∈ Ico a (k + 1), (ind (X j : ℝ) x - ind (xu X k j) x) *
      ((ind (Y a : ℝ) y - ind (yu Y a) y) * ((x - X a) * (y - Y j) - smin X Y a j))) ∂(gaussianReal mu.2 (s.2 ^ 2).toNNReal)
      = ∑ a ∈ range (k + 1), ∑ j ∈ Ico a (k + 1), ∫ y, (ind (X j : ℝ) x - ind (xu X k j) x) *
      ((ind (Y a : ℝ) y - ind (yu Y a) y) * ((x - X a) * (y - Y j) - smin X Y a j)) ∂(gaussianReal mu.2 (s.2 ^ 2).toNNReal) := by
    intro x
    rw [integral_finsetSum _ fun a _ => integrable_finsetSum _ fun j _ => hy x a j]
    refine sum_congr rfl fun a _ => ?_
    rw [integral_finsetSum _ fun j _ => hy x a j]
  simp only [e]
  rw [integral_finsetSum _ fun a _ => integrable_finsetSum _ fun j _ => hx a j]
  refine sum_congr rfl fun a _ => ?_
  rw [integral_finsetSum _ fun j _ => hx a j]
  exact sum_congr rfl fun j _ => cv_eq h1 h2 a j

/-! The loops. -/

variable {Q : List (ℝ × ℝ)} {r : ℝ × ℝ}

theorem elem_nat {m : ℕ} (hm : m < Q.length) : elem Q (m : Int) = some (Xl r.1 Q (m + 1), Yl r.2 Q m) := by
  have : Q[m]? = some Q[m] := List.getElem?_eq_getElem hm
  rw [elem, if_pos (Int.natCast_nonneg m), Int.toNat_natCast, this]
  congr 1
  ext
  · simp [Xl, List.getD, hm]
  · simp [Yl, List.getD, List.getElem?_append_left, hm]

theorem Yl_last : Yl r.2 Q Q.length = r.2 := by simp [Yl, List.getD]

theorem Xl_zero : Xl r.1 Q 0 = r.1 := rfl

theorem cell_eq {a j : ℕ} (ha : a ≤ Q.length) (hj : j ≤ Q.length) :
    cell Q r Q.length ((Q.length : Int) - a) j = some (gridCell (Xl r.1 Q) (Yl r.2 Q) Q.length a j) := by
  have e1 : (if (j : Int) = (Q.length : Int) then some (r.2, (⊤ : WithTop ℝ)) else (elem Q j).map fun p => (p.2, (p.1 : WithTop ℝ)))
      = some (Yl r.2 Q j, xu (Xl r.1 Q) Q.length j) := by
    by_cases h : j = Q.length
    · rw [if_pos (by omega), xu, if_pos h, h, Yl_last]
    · rw [if_neg (by omega), elem_nat (r := r) (show j < Q.length by omega), xu, if_neg h]
      rfl
  have e2 : (if (Q.length : Int) - a = (Q.length : Int) then some (r.1, (⊤ : WithTop ℝ))
      else (elem Q ((Q.length : Int) - (Q.length - a) - 1)).map fun p => (p.1, (p.2 : WithTop ℝ)))
      = some (Xl r.1 Q a, yu (Yl r.2 Q) a) := by
    rcases a with _ | a
    · rw [if_pos (by simp), yu, if_pos rfl, Xl_zero]
    · rw [if_neg (by omega), show (Q.length : Int) - (Q.length - ((a + 1 : ℕ) : Int)) - 1 = (a : ℕ) by omega,
        elem_nat (r := r) (show a < Q.length by omega), yu, if_neg (Nat.succ_ne_zero a)]
      rfl
  have e3 : (if (j : Int) = 0 then some r.1 else (elem Q ((j : Int) - 1)).map Prod.fst) = some (Xl r.1 Q j) := by
    rcases j with _ | j
    · rw [if_pos (by simp), Xl_zero]
    · rw [if_neg (by omega), show ((j + 1 : ℕ) : Int) - 1 = (j : ℕ) by omega, elem_nat (r := r) (show j < Q.length by omega)]
      rfl
  have e4 : (if (Q.length : Int) - a = 0 then some r.2 else (elem Q ((Q.length : Int) - (Q.length - a))).map Prod.snd) = some (Yl r.2 Q a) := by
    by_cases h : a = Q.length
    · rw [if_pos (by omega), h, Yl_last]
    · rw [if_neg (by omega), show (Q.length : Int) - (Q.length - (a : Int)) = (a : ℕ) by omega, elem_nat (r := r) (show a < Q.length by omega)]
      rfl
  unfold cell
  rw [e1, e2, e3, e4]
  rfl

/-- The contribution of a cell with the constants `c`. -/
noncomputable def cvc (c : Consts) (X Y : ℕ → ℝ) (k : ℕ) (mu s : ℝ × ℝ) (a j : ℕ) : ℝ := cellSum c (gridCell X Y k a j) mu s (smin X Y a j)

theorem loopJ_eq (c : Consts) {a : ℕ} (ha : a ≤ Q.length) :
    ∀ rest j ans, j + rest = Q.length + 1 → a ≤ j →
      loopJ c Q r mu s Q.length ((Q.length : Int) - a) ((a : Int) - 1) rest j (smin (Xl r.1 Q) (Yl r.2 Q) a (j - 1)) ((j : Int) - 1) ans
        = some (ans + ∑ m ∈ Ico j (Q.length + 1), max 0 (cvc c (Xl r.1 Q) (Yl r.2 Q) Q.length mu s a m)) := by
  intro rest
  induction rest with
  | zero =>
    intro j ans hj _
    rw [loopJ, show j = Q.length + 1 by omega]
    simp
  | succ rest ih =>
    intro j ans hj haj
    have hjk : j ≤ Q.length := by omega
    rw [loopJ, cell_eq ha hjk]
    have hs : (if (j : Int) - 1 > (a : Int) - 1 then (elem Q ((j : Int) - 1)).map fun p => smin (Xl r.1 Q) (Yl r.2 Q) a (j - 1)
          + (p.1 - (gridCell (Xl r.1 Q) (Yl r.2 Q) Q.length a j).fmax.1) * (p.2 - (gridCell (Xl r.1 Q) (Yl r.2 Q) Q.length a j).fmax.2)
        else some (smin (Xl r.1 Q) (Yl r.2 Q) a (j - 1))) = some (smin (Xl r.1 Q) (Yl r.2 Q) a j) := by
      rcases Nat.eq_or_lt_of_le haj with rfl | hlt
      · rw [if_neg (by omega)]
        simp [smin]
      · obtain ⟨n, rfl⟩ : ∃ n, j = n + 1 := ⟨j - 1, by omega⟩
        rw [if_pos (by omega), show ((n + 1 : ℕ) : Int) - 1 = (n : ℕ) by omega, elem_nat (r := r) (show n < Q.length by omega), Nat.add_sub_cancel,
          smin, smin, sum_Ico_succ_top (by omega)]
        rfl
    simp only [Option.bind_eq_bind, Option.bind_some]
    rw [hs, Option.bind_some, show (j : Int) + 1 = ((j + 1 : ℕ) : Int) by omega, show (j : Int) - 1 + 1 = ((j + 1 : ℕ) : Int) - 1 by omega]
    have := ih (j + 1) (ans + max 0 (cvc c (Xl r.1 Q) (Yl r.2 Q) Q.length mu s a j)) (by omega) (by omega)
    rw [Nat.add_sub_cancel] at this
    have hans : (open Classical in if 0 < cellSum c (gridCell (Xl r.1 Q) (Yl r.2 Q) Q.length a j) mu s (smin (Xl r.1 Q) (Yl r.2 Q) a j)
        then ans + cellSum c (gridCell (Xl r.1 Q) (Yl r.2 Q) Q.length a j) mu s (smin (Xl r.1 Q) (Yl r.2 Q) a j) else ans)
        = ans + max 0 (cvc c (Xl r.1 Q) (Yl r.2 Q) Q.length mu s a j) := by
      by_cases hp : 0 < cvc c (Xl r.1 Q) (Yl r.2 Q) Q.length mu s a j
      · rw [max_eq_right hp.le]
        exact if_pos hp
      · rw [max_eq_left (not_lt.mp hp), add_zero]
        exact if_neg hp
    rw [hans, this, sum_eq_sum_Ico_succ_bot (show j < Q.length + 1 by omega)]
    congr 1
    ring

theorem loopI_eq (c : Consts) :
    ∀ rest ans, rest ≤ Q.length + 1 →
      loopI c Q r mu s Q.length rest ((Q.length : Int) + 1 - rest) ((rest : Int) - 2) ans
        = some (ans + ∑ a ∈ range rest, ∑ m ∈ Ico a (Q.length + 1), max 0 (cvc c (Xl r.1 Q) (Yl r.2 Q) Q.length mu s a m)) := by
  intro rest
  induction rest with
  | zero => intro ans _; simp [loopI]
  | succ a ih =>
    intro ans ha
    rw [loopI, show (Q.length : Int) + 1 - ((a + 1 : ℕ) : Int) = (Q.length : Int) - a by omega, show ((a + 1 : ℕ) : Int) - 2 = (a : Int) - 1 by omega,
      show (Q.length : Int) - ((Q.length : Int) - a) = (a : ℕ) by omega]
    have hj := loopJ_eq (mu := mu) (s := s) (r := r) c (show a ≤ Q.length by omega) ((Q.length : Int) - a + 1).toNat a ans (by omega) (le_refl _)
    rw [show smin (Xl r.1 Q) (Yl r.2 Q) a (a - 1) = 0 by simp [smin]] at hj
    simp only [Option.bind_eq_bind]
    rw [hj, Option.bind_some, show (Q.length : Int) - a + 1 = (Q.length : Int) + 1 - a by omega, show (a : Int) - 1 - 1 = (a : Int) - 2 by omega,
      ih _ (by omega), sum_range_succ]
    congr 1
    ring

/-- `ehvi2d` adds up the positive contributions of the cells. -/
theorem ehvi2d_sum (sort : List (ℝ × ℝ) → List (ℝ × ℝ)) (c : Consts) (P : List (ℝ × ℝ)) (r mu s : ℝ × ℝ) :
    ehvi2d sort c P r mu s = some (∑ a ∈ range ((sort P).length + 1), ∑ m ∈ Ico a ((sort P).length + 1),
      max 0 (cvc c (Xl r.1 (sort P)) (Yl r.2 (sort P)) (sort P).length mu s a m)) := by
  have hl := loopI_eq (mu := mu) (s := s) (r := r) (Q := sort P) c ((sort P).length + 1) 0 (le_refl _)
  rw [show ((sort P).length : Int) + 1 - (((sort P).length + 1 : ℕ) : Int) = 0 by omega,
    show (((sort P).length + 1 : ℕ) : Int) - 2 = ((sort P).length : Int) - 1 by omega, zero_add] at hl
  exact hl

/-- A sorted list of mutually non-dominated points is a staircase. -/
theorem stairs_of_sorted (hs : Q.Pairwise fun p q => p.1 ≤ q.1) (hn : MutuallyNonDominated Q) (hr : ∀ p ∈ Q, r.1 ≤ p.1 ∧ r.2 ≤ p.2) :
    Stairs r.2 r.1 Q := by
  refine ⟨?_, hr⟩
  refine (List.pairwise_iff_getElem.mpr fun i j hi hj hij => ?_)
  have h := List.pairwise_iff_getElem.mp hs i j hi hj hij
  refine ⟨h, ?_⟩
  by_contra hc
  have := hn _ (List.getElem_mem hi) _ (List.getElem_mem hj) h (not_le.mp hc).le
  rw [this] at hc
  exact hc (le_refl _)

theorem hvImprovement_perm {P : List (ℝ × ℝ)} (h : Q.Perm P) (z : ℝ × ℝ) : hvImprovement r Q z = hvImprovement r P z := by
  have key : ∀ {A B : List (ℝ × ℝ)}, A.Perm B → dominatedVolume (planePt r) (A.map planePt) = dominatedVolume (planePt r) (B.map planePt) := by
    intro A B hAB
    unfold dominatedVolume
    have : ∀ p, p ∈ A.map planePt ↔ p ∈ B.map planePt := fun p => (hAB.map planePt).mem_iff
    simp only [this]
  unfold hvImprovement
  rw [key h, key (h.cons z)]

theorem stairs_sort {sort : List (ℝ × ℝ) → List (ℝ × ℝ)} (hsort : SortsByFirst sort) {P : List (ℝ × ℝ)} (hn : MutuallyNonDominated P)
    (hr : ∀ p ∈ P, r.1 ≤ p.1 ∧ r.2 ≤ p.2) : Stairs r.2 r.1 (sort P) :=
  have hp := hsort.perm P
  stairs_of_sorted (hsort.sorted P)
    (fun p hp' q hq => hn p (hp.mem_iff.mp hp') q (hp.mem_iff.mp hq)) fun p hp' => hr p (hp.mem_iff.mp hp')

theorem expected_sum {sort : List (ℝ × ℝ) → List (ℝ × ℝ)} (hsort : SortsByFirst sort) {P : List (ℝ × ℝ)} (hn : MutuallyNonDominated P)
    (hr : ∀ p ∈ P, r.1 ≤ p.1 ∧ r.2 ≤ p.2) (h1 : 0 < s.1) (h2 : 0 < s.2) :
    expectedHvImprovement r P mu (s.1 ^ 2, s.2 ^ 2) = ∑ a ∈ range ((sort P).length + 1), ∑ m ∈ Ico a ((sort P).length + 1),
      max 0 (cvc Consts.exact (Xl r.1 (sort P)) (Yl r.2 (sort P)) (sort P).length mu s a m) := by
  have hst := stairs_sort hsort hn hr
  have hg := grid_of_stairs hst
  have e : ∑ a ∈ range ((sort P).length + 1), ∑ m ∈ Ico a ((sort P).length + 1),
      max 0 (cvc Consts.exact (Xl r.1 (sort P)) (Yl r.2 (sort P)) (sort P).length mu s a m)
      = ∑ a ∈ range ((sort P).length + 1), ∑ m ∈ Ico a ((sort P).length + 1), cv (Xl r.1 (sort P)) (Yl r.2 (sort P)) (sort P).length mu s a m :=
    sum_congr rfl fun a _ => sum_congr rfl fun m hm => by
      have := mem_Ico.mp hm
      exact max_eq_right (cv_nonneg hg h1 h2 this.1 (by omega))
  rw [e, ← area_expected hg h1 h2]
  unfold expectedHvImprovement
  simp only [← hvImprovement_perm (r := r) (hsort.perm P), hvImprovement_eq hst, stair_eq]

theorem ehvi2d_eq {sort : List (ℝ × ℝ) → List (ℝ × ℝ)} (hsort : SortsByFirst sort) {P : List (ℝ × ℝ)} (hn : MutuallyNonDominated P)
    (hr : ∀ p ∈ P, r.1 ≤ p.1 ∧ r.2 ≤ p.2) (h1 : 0 < s.1) (h2 : 0 < s.2) :
    ehvi2d sort Consts.exact P r mu s = some (expectedHvImprovement r P mu (s.1 ^ 2, s.2 ^ 2)) := by
  rw [ehvi2d_sum, expected_sum hsort hn hr h1 h2]

end Limbo.Ehvi
