import Verif.Lemmas.Psd
import Verif.Spec.Kernel
import Verif.Spec.GpHist
import Mathlib.Analysis.SpecialFunctions.Log.Deriv
import Mathlib.Data.Finset.Sum
import Mathlib.Data.List.GetD
import Mathlib.Algebra.BigOperators.Group.Finset.Sigma

namespace Limbo

open Finset

/-! ## reading lists -/

theorem at'_set (p : List ℝ) (q m : Nat) (t : ℝ) (hq : q < p.length) : at' (p.set q t) m = if m = q then t else at' p m := by
  unfold at'
  simp only [List.getD_eq_getElem?_getD, List.getElem?_set]
  by_cases h : q = m
  · subst h; simp [hq]
  · rw [if_neg h, if_neg (fun e => h e.symm)]

theorem at'_deriv (p : List ℝ) (q m : Nat) (hq : q < p.length) :
    HasDerivAt (fun t => at' (p.set q t) m) (if m = q then 1 else 0) (at' p q) := by
  by_cases h : m = q
  · subst h
    simp only [at'_set p m m _ hq, if_true]
    exact hasDerivAt_id' _
  · simp only [at'_set p q m _ hq, if_neg h]
    exact hasDerivAt_const _ _

theorem at'_set_self (p : List ℝ) (q : Nat) (hq : q < p.length) : p.set q (at' p q) = p := by
  unfold at'
  rw [List.getD_eq_getElem _ _ hq]
  exact List.set_getElem_self hq

theorem at'_take (p : List ℝ) (n m : Nat) : at' (p.take n) m = if m < n then at' p m else 0 := by
  unfold at'
  simp only [List.getD_eq_getElem?_getD, List.getElem?_take]
  split <;> rfl

/-! ## distances -/

theorem sqDist_nonneg (x y : List ℝ) : 0 ≤ sqDist x y := sum_nonneg fun _ _ => mul_self_nonneg _

theorem sqDist_symm {x y : List ℝ} (h : x.length = y.length) : sqDist x y = sqDist y x := by
  unfold sqDist; rw [h]
  exact sum_congr rfl fun _ _ => by ring

theorem sqDist_self (x : List ℝ) : sqDist x x = 0 := by simp [sqDist]

theorem dist2_nonneg (x y : List ℝ) : 0 ≤ dist2 x y := Real.sqrt_nonneg _

theorem dist2_self (x : List ℝ) : dist2 x x = 0 := by simp [dist2, sqDist_self]

/-! ## SE-ARD -/

/-- `zᵀ M z` as a sum of squares -/
theorem ArdSt.quad_eq (kk : Nat) (s : ArdSt) (x y : List ℝ) :
    s.quad kk x y = ∑ i ∈ range s.dim, s.ratio x y i + ∑ j ∈ range kk, (∑ a ∈ range s.dim, s.A a j * (at' x a - at' y a)) ^ 2 := by
  unfold ArdSt.quad ArdSt.M ArdSt.ratio
  have e : ∀ a b, (at' x a - at' y a) * ((∑ j ∈ range kk, s.A a j * s.A b j) + if a = b then (s.ell a)⁻¹ * (s.ell a)⁻¹ else 0) * (at' x b - at' y b)
      = (if a = b then (at' x a - at' y a) / s.ell a * ((at' x a - at' y a) / s.ell a) else 0)
        + ∑ j ∈ range kk, s.A a j * (at' x a - at' y a) * (s.A b j * (at' x b - at' y b)) := by
    intro a b
    have : ∑ j ∈ range kk, s.A a j * (at' x a - at' y a) * (s.A b j * (at' x b - at' y b))
        = (at' x a - at' y a) * (∑ j ∈ range kk, s.A a j * s.A b j) * (at' x b - at' y b) := by
      rw [mul_sum, sum_mul]
      exact sum_congr rfl fun j _ => by ring
    rw [this]
    by_cases h : a = b
    · subst h; simp only [if_true]; ring
    · simp only [if_neg h]; ring
  simp only [e, sum_add_distrib]
  congr 1
  · apply sum_congr rfl
    intro a ha
    rw [sum_ite_eq]
    simp only [ha, if_true]
  · have : ∀ a, ∑ b ∈ range s.dim, ∑ j ∈ range kk, s.A a j * (at' x a - at' y a) * (s.A b j * (at' x b - at' y b))
        = ∑ j ∈ range kk, ∑ b ∈ range s.dim, s.A a j * (at' x a - at' y a) * (s.A b j * (at' x b - at' y b)) := fun a => sum_comm
    simp only [this]
    rw [sum_comm]
    apply sum_congr rfl
    intro j _
    rw [sq, Finset.sum_mul_sum]

/-- the exponent used by the kernel, whatever `k` -/
noncomputable def ArdSt.z (kk : Nat) (s : ArdSt) (x y : List ℝ) : ℝ :=
  ∑ i ∈ range s.dim, s.ratio x y i + ∑ j ∈ range kk, (∑ a ∈ range s.dim, s.A a j * (at' x a - at' y a)) ^ 2

theorem seArd_kernel (kk : Nat) (sg : ℝ) (s : ArdSt) (x y : List ℝ) : (seArd kk sg).kernel s x y = s.sf2 * Real.exp (-0.5 * s.z kk x y) := by
  show s.sf2 * Real.exp (-0.5 * if kk > 0 then s.quad kk x y else (∑ i ∈ range s.dim, s.ratio x y i)) = _
  unfold ArdSt.z
  split
  · rw [ArdSt.quad_eq]
  · rename_i h
    have : kk = 0 := by omega
    subst this
    simp

theorem ArdSt.z_nonneg (kk : Nat) (s : ArdSt) (x y : List ℝ) : 0 ≤ s.z kk x y :=
  add_nonneg (sum_nonneg fun _ _ => mul_self_nonneg _) (sum_nonneg fun _ _ => sq_nonneg _)

theorem ArdSt.z_symm (kk : Nat) (s : ArdSt) (x y : List ℝ) : s.z kk x y = s.z kk y x := by
  unfold ArdSt.z ArdSt.ratio
  congr 1
  · exact sum_congr rfl fun _ _ => by ring
  · refine sum_congr rfl fun j _ => ?_
    rw [← neg_sq, ← sum_neg_distrib]
    congr 1
    exact sum_congr rfl fun _ _ => by ring

theorem ArdSt.z_self (kk : Nat) (s : ArdSt) (x : List ℝ) : s.z kk x x = 0 := by
  simp [ArdSt.z, ArdSt.ratio]

/-! ## covariance functions -/

theorem covariance_of {k : List ℝ → List ℝ → ℝ} {d : Nat} (hs : ∀ x y, x.length = d → y.length = d → k x y = k y x)
    (h : ∀ n (xs : Fin n → List ℝ), (∀ i, (xs i).length = d) → NND fun i j => k (xs i) (xs j)) : Covariance k d :=
  ⟨hs, fun xs hx c => h xs.length (fun i => xs[i]) (fun i => hx _ (List.getElem_mem _)) c⟩

theorem scaled_sqDist {n d : Nat} (xs : Fin n → List ℝ) (hx : ∀ i, (xs i).length = d) (w : ℝ) (i j : Fin n) :
    sqd (range d) (fun i a => w * at' (xs i) a) i j = w ^ 2 * sqDist (xs i) (xs j) := by
  unfold sqd sqDist
  rw [hx i, mul_sum]
  exact sum_congr rfl fun _ _ => by ring

theorem exp_cov (sg l : ℝ) (s : IsoSt) (h : 0 ≤ s.sf2) (d : Nat) : Covariance ((expKernel sg l).kernel s) d := by
  apply covariance_of
  · intro x y hx hy
    simp only [expKernel]
    rw [sqDist_symm (by rw [hx, hy])]
  · intro n xs hx
    have := (gauss_nnd (range d) (fun i a => s.l⁻¹ * at' (xs i) a) (w := 0) (show (0:ℝ) ≤ 1 / 2 by norm_num)).smul h
    intro c
    refine le_of_le_of_eq (this c) ?_
    congr 1
    funext i j
    rw [scaled_sqDist xs hx]
    simp only [expKernel]
    congr 2
    rw [inv_pow, add_zero]
    rw [div_eq_mul_inv, sq]; ring

theorem m32_cov (sg l : ℝ) (s : IsoSt) (h : 0 ≤ s.sf2) (hl : 0 < s.l) (d : Nat) : Covariance ((matern32 sg l).kernel s) d := by
  apply covariance_of
  · intro x y hx hy
    simp only [matern32, dist2]
    rw [sqDist_symm (by rw [hx, hy])]
  · intro n xs hx
    have := (matern32_nnd (range d) (fun i a => (√3 / s.l) * at' (xs i) a) (w := 0) le_rfl).smul h
    intro c
    refine le_of_le_of_eq (this c) ?_
    congr 1
    funext i j
    have e : √(sqd (range d) (fun i a => (√3 / s.l) * at' (xs i) a) i j + 0) = √3 * dist2 (xs i) (xs j) / s.l := by
      rw [scaled_sqDist xs hx, add_zero, Real.sqrt_mul (sq_nonneg _), Real.sqrt_sq (by positivity)]
      unfold dist2; ring
    simp only [e, matern32]
    ring

theorem m52_cov (sg l : ℝ) (s : IsoSt) (h : 0 ≤ s.sf2) (hl : 0 < s.l) (d : Nat) : Covariance ((matern52 sg l).kernel s) d := by
  apply covariance_of
  · intro x y hx hy
    simp only [matern52, dist2]
    rw [sqDist_symm (by rw [hx, hy])]
  · intro n xs hx
    have := (matern52_nnd (range d) (fun i a => (√5 / s.l) * at' (xs i) a) (w := 0) le_rfl).smul h
    intro c
    refine le_of_le_of_eq (this c) ?_
    congr 1
    funext i j
    have e : √(sqd (range d) (fun i a => (√5 / s.l) * at' (xs i) a) i j + 0) = √5 * dist2 (xs i) (xs j) / s.l := by
      rw [scaled_sqDist xs hx, add_zero, Real.sqrt_mul (sq_nonneg _), Real.sqrt_sq (by positivity)]
      unfold dist2; ring
    have e2 : (sqd (range d) (fun i a => (√5 / s.l) * at' (xs i) a) i j + 0) / 3 = 5 * (dist2 (xs i) (xs j) * dist2 (xs i) (xs j)) / (3 * (s.l * s.l)) := by
      rw [scaled_sqDist xs hx, add_zero]
      unfold dist2
      rw [Real.mul_self_sqrt (sqDist_nonneg _ _), div_pow, Real.sq_sqrt (by norm_num)]
      field_simp
    simp only [e, e2, matern52]
    ring

theorem ard_cov (kk : Nat) (sg : ℝ) (s : ArdSt) (h : 0 ≤ s.sf2) (d : Nat) : Covariance ((seArd kk sg).kernel s) d := by
  apply covariance_of
  · intro x y _ _
    rw [seArd_kernel, seArd_kernel, ArdSt.z_symm]
  · intro n xs hx
    let φ : Fin n → ℕ ⊕ ℕ → ℝ := fun i r => match r with
      | .inl a => at' (xs i) a / s.ell a
      | .inr j => ∑ a ∈ range s.dim, s.A a j * at' (xs i) a
    have := (gauss_nnd ((range s.dim).disjSum (range kk)) φ (w := 0) (show (0:ℝ) ≤ 1 / 2 by norm_num)).smul h
    intro c
    refine le_of_le_of_eq (this c) ?_
    congr 1
    funext i j
    rw [seArd_kernel]
    congr 2
    have : sqd ((range s.dim).disjSum (range kk)) φ i j = s.z kk (xs i) (xs j) := by
      unfold sqd ArdSt.z ArdSt.ratio
      rw [Finset.sum_disjSum]
      congr 1
      · exact sum_congr rfl fun _ _ => by simp only [φ]; ring
      · refine sum_congr rfl fun _ _ => ?_
        simp only [φ]
        rw [← sum_sub_distrib]
        congr 1
        exact sum_congr rfl fun _ _ => by ring
    rw [this, add_zero]; ring

end Limbo

namespace Limbo

open Finset

/-! ## values -/

/-- state invariants of the kernels: variance and length scale are positive and agree with the stored parameters -/
def IsoOK (s : IsoSt) : Prop := s.h.length = 2 ∧ s.sf2 = Real.exp (2 * at' s.h 1) ∧ s.l = Real.exp (at' s.h 0)

theorem IsoOK.new {sg l : ℝ} (h : 0 < sg) (hl : 0 < l) : IsoOK (IsoSt.mk' sg l) := by
  refine ⟨rfl, ?_, ?_⟩
  · show sg = Real.exp (2 * Real.log √sg)
    rw [Real.log_sqrt h.le, mul_div_cancel₀ _ two_ne_zero, Real.exp_log h]
  · show l = Real.exp (Real.log l)
    rw [Real.exp_log hl]

theorem IsoOK.set (s : IsoSt) {p : List ℝ} (hp : p.length = 2) : IsoOK (s.set p) := ⟨hp, rfl, rfl⟩

theorem IsoOK.set_self {s : IsoSt} (h : IsoOK s) : s.set s.h = s := by
  cases s
  simp only [IsoSt.set, IsoOK] at *
  rw [← h.2.1, ← h.2.2]

def ArdOK (kk : Nat) (s : ArdSt) : Prop :=
  s.h.length = s.size kk ∧ s.sf2 = Real.exp (2 * at' s.h (s.size kk - 1)) ∧ (∀ i < s.dim, s.ell i = Real.exp (at' s.h i)) ∧
    (∀ i < s.dim, ∀ j < kk, s.A i j = at' s.h ((j + 1) * s.dim + i))

theorem ArdOK.set (kk : Nat) (s : ArdSt) {p : List ℝ} (hp : p.length = s.size kk) : ArdOK kk (s.set kk p) := by
  refine ⟨hp, rfl, ?_, ?_⟩
  · intro i hi
    show (if i < s.dim then _ else _) = _
    exact if_pos hi
  · intro i hi j hj
    show (if i < s.dim ∧ j < kk then _ else _) = _
    exact if_pos ⟨hi, hj⟩

theorem ArdOK.new (kk : Nat) (sg : ℝ) (d : Nat) : ArdOK kk (ArdSt.mk' kk sg d) := by
  apply ArdOK.set
  simp [ArdSt.size]

theorem ArdOK.set_self {kk : Nat} {s : ArdSt} (h : ArdOK kk s) : s.set kk s.h = s := by
  obtain ⟨h1, h2, h3, h4⟩ := h
  cases s with
  | mk sf2 ell A dim hh =>
    simp only [ArdSt.set] at *
    congr 1
    · exact h2.symm
    · funext i
      split
      · rename_i hi; exact (h3 i hi).symm
      · rfl
    · funext i j
      split
      · rename_i hi; exact (h4 i hi.1 j hi.2).symm
      · rfl

/-! ## gradients -/

theorem iso_sf2_deriv (s : IsoSt) (p : List ℝ) (hp : p.length = 2) (q : Nat) (hq : q < 2) :
    HasDerivAt (fun t => (s.set (p.set q t)).sf2) (if q = 1 then 2 * (s.set p).sf2 else 0) (at' p q) := by
  have h := ((at'_deriv p q 1 (by omega)).const_mul 2).exp
  rw [at'_set_self p q (by omega)] at h
  refine h.congr_deriv ?_
  show Real.exp (2 * at' p 1) * _ = if q = 1 then 2 * Real.exp (2 * at' p 1) else 0
  by_cases h1 : q = 1
  · subst h1; simp; ring
  · simp [h1, Ne.symm h1]

theorem iso_invl_deriv (s : IsoSt) (p : List ℝ) (hp : p.length = 2) (q : Nat) (hq : q < 2) :
    HasDerivAt (fun t => ((s.set (p.set q t)).l)⁻¹) (if q = 0 then -((s.set p).l)⁻¹ else 0) (at' p q) := by
  have h := (at'_deriv p q 0 (by omega)).exp.fun_inv (Real.exp_pos _).ne'
  rw [at'_set_self p q (by omega)] at h
  refine h.congr_deriv ?_
  show -(Real.exp (at' p 0) * _) / Real.exp (at' p 0) ^ 2 = if q = 0 then -(Real.exp (at' p 0))⁻¹ else 0
  have := (Real.exp_pos (at' p 0)).ne'
  by_cases h1 : q = 0
  · subst h1; simp only [if_true]; field_simp
  · simp [h1, Ne.symm h1]

theorem exp_deriv (sg l : ℝ) (s : IsoSt) (p : List ℝ) (hp : p.length = 2) (q : Nat) (hq : q < 2) (x y : List ℝ) :
    HasDerivAt (fun t => (expKernel sg l).kernel (s.set (p.set q t)) x y) ((expKernel sg l).gradient (s.set p) x y q) (at' p q) := by
  have h1 := iso_sf2_deriv s p hp q hq
  have h2 := iso_invl_deriv s p hp q hq
  have h3 := h1.fun_mul (((h2.fun_mul h2).const_mul (-0.5 * sqDist x y)).exp)
  simp only [expKernel]
  rw [at'_set_self p q (by omega)] at h3
  have hl : (s.set p).l ≠ 0 := (Real.exp_pos _).ne'
  refine (h3.congr_of_eventuallyEq ?_).congr_deriv ?_
  · refine Filter.Eventually.of_forall fun t => ?_
    simp only
    rw [div_eq_mul_inv, mul_inv]
    ring_nf
  · have e : -0.5 * (sqDist x y / ((s.set p).l * (s.set p).l)) = -0.5 * sqDist x y * (((s.set p).l)⁻¹ * ((s.set p).l)⁻¹) := by
      rw [div_eq_mul_inv, mul_inv]; ring
    rw [e]
    by_cases hq0 : q = 0
    · subst hq0
      simp only [if_true, if_neg (show ¬ (0 : ℕ) = 1 by omega)]
      field_simp
      ring
    · have : q = 1 := by omega
      subst this
      simp only [if_true, if_neg (show ¬ (1 : ℕ) = 0 by omega)]
      ring

theorem m32_deriv (sg l : ℝ) (s : IsoSt) (p : List ℝ) (hp : p.length = 2) (q : Nat) (hq : q < 2) (x y : List ℝ) :
    HasDerivAt (fun t => (matern32 sg l).kernel (s.set (p.set q t)) x y) ((matern32 sg l).gradient (s.set p) x y q) (at' p q) := by
  have h1 := iso_sf2_deriv s p hp q hq
  have h2 := (iso_invl_deriv s p hp q hq).const_mul (√3 * dist2 x y)
  have h3 := (h1.fun_mul (h2.const_add 1)).fun_mul h2.fun_neg.exp
  rw [at'_set_self p q (by omega)] at h3
  simp only [matern32, div_eq_mul_inv]
  refine h3.congr_deriv ?_
  by_cases hq0 : q = 0
  · subst hq0
    simp only [if_true, if_neg (show ¬ (0 : ℕ) = 1 by omega)]
    ring
  · have : q = 1 := by omega
    subst this
    simp only [if_true, if_neg (show ¬ (1 : ℕ) = 0 by omega)]
    ring

theorem m52_deriv (sg l : ℝ) (s : IsoSt) (p : List ℝ) (hp : p.length = 2) (q : Nat) (hq : q < 2) (x y : List ℝ) :
    HasDerivAt (fun t => (matern52 sg l).kernel (s.set (p.set q t)) x y) ((matern52 sg l).gradient (s.set p) x y q) (at' p q) := by
  have h1 := iso_sf2_deriv s p hp q hq
  have h0 := iso_invl_deriv s p hp q hq
  have h2 := h0.const_mul (√5 * dist2 x y)
  have h2' := (h0.fun_mul h0).const_mul (5 * (dist2 x y * dist2 x y) / 3)
  have h3 := (h1.fun_mul ((h2.const_add 1).fun_add h2')).fun_mul h2.fun_neg.exp
  rw [at'_set_self p q (by omega)] at h3
  simp only [matern52, div_eq_mul_inv, mul_inv]
  refine (h3.congr_of_eventuallyEq ?_).congr_deriv ?_
  · refine Filter.Eventually.of_forall fun t => ?_
    simp only [div_eq_mul_inv]
    ring_nf
  by_cases hq0 : q = 0
  · subst hq0
    simp only [if_true, if_neg (show ¬ (0 : ℕ) = 1 by omega)]
    ring
  · have : q = 1 := by omega
    subst this
    simp only [if_true, if_neg (show ¬ (1 : ℕ) = 0 by omega)]
    ring

theorem ard_sf2_deriv (kk : Nat) (s : ArdSt) (p : List ℝ) (hp : p.length = s.size kk) (q : Nat) (hq : q < s.size kk) :
    HasDerivAt (fun t => (s.set kk (p.set q t)).sf2) (if q = s.size kk - 1 then 2 * (s.set kk p).sf2 else 0) (at' p q) := by
  have h := ((at'_deriv p q (s.size kk - 1) (by omega)).const_mul 2).exp
  rw [at'_set_self p q (by omega)] at h
  refine h.congr_deriv ?_
  show Real.exp (2 * at' p (s.size kk - 1)) * _ = if q = s.size kk - 1 then 2 * Real.exp (2 * at' p (s.size kk - 1)) else 0
  by_cases h1 : q = s.size kk - 1
  · rw [if_pos h1, if_pos h1.symm]; ring
  · rw [if_neg h1, if_neg (Ne.symm h1)]; ring

theorem ard_ratio_deriv (kk : Nat) (s : ArdSt) (p : List ℝ) (hp : p.length = s.size kk) (q : Nat) (hq : q < s.size kk) (x y : List ℝ)
    (i : Nat) (hi : i < s.dim) :
    HasDerivAt (fun t => (s.set kk (p.set q t)).ratio x y i) (if i = q then -2 * (s.set kk p).ratio x y i else 0) (at' p q) := by
  have h := (at'_deriv p q i (by omega)).exp.fun_inv (Real.exp_pos _).ne'
  have h2 := (h.fun_mul h).const_mul ((at' x i - at' y i) * (at' x i - at' y i))
  rw [at'_set_self p q (by omega)] at h2
  have e : ∀ p : List ℝ, (s.set kk p).ratio x y i
      = (at' x i - at' y i) * (at' x i - at' y i) * ((Real.exp (at' p i))⁻¹ * (Real.exp (at' p i))⁻¹) := by
    intro p
    simp only [ArdSt.ratio, ArdSt.set, if_pos hi, div_eq_mul_inv]
    ring
  simp only [e]
  refine h2.congr_deriv ?_
  have := (Real.exp_pos (at' p i)).ne'
  by_cases h1 : i = q
  · simp only [if_pos h1]; field_simp; ring
  · simp only [if_neg h1]; ring

theorem ard_lin_deriv (kk : Nat) (s : ArdSt) (p : List ℝ) (hp : p.length = s.size kk) (q : Nat) (hq : q < s.size kk) (x y : List ℝ)
    (j : Nat) (hj : j < kk) :
    HasDerivAt (fun t => ∑ a ∈ range s.dim, (s.set kk (p.set q t)).A a j * (at' x a - at' y a))
      (∑ a ∈ range s.dim, if (j + 1) * s.dim + a = q then at' x a - at' y a else 0) (at' p q) := by
  refine HasDerivAt.fun_sum fun a ha => ?_
  have h := (at'_deriv p q ((j + 1) * s.dim + a) (by omega)).mul_const (at' x a - at' y a)
  have e : ∀ t, (s.set kk (p.set q t)).A a j = at' (p.set q t) ((j + 1) * s.dim + a) := fun t => if_pos ⟨mem_range.1 ha, hj⟩
  simp only [e]
  refine h.congr_deriv ?_
  split <;> simp

theorem ard_z_deriv (kk : Nat) (s : ArdSt) (p : List ℝ) (hp : p.length = s.size kk) (q : Nat) (hq : q < s.size kk) (x y : List ℝ) :
    HasDerivAt (fun t => (s.set kk (p.set q t)).z kk x y)
      (if q < s.dim then -2 * (s.set kk p).ratio x y q
       else if q < s.dim + s.dim * kk then
        2 * (∑ a ∈ range s.dim, (s.set kk p).A a (q / s.dim - 1) * (at' x a - at' y a)) * (at' x (q % s.dim) - at' y (q % s.dim))
       else 0) (at' p q) := by
  have h1 : HasDerivAt (fun t => ∑ i ∈ range s.dim, (s.set kk (p.set q t)).ratio x y i)
      (∑ i ∈ range s.dim, if i = q then -2 * (s.set kk p).ratio x y i else 0) (at' p q) :=
    HasDerivAt.fun_sum fun i hi => ard_ratio_deriv kk s p hp q hq x y i (mem_range.1 hi)
  have h2 : HasDerivAt (fun t => ∑ j ∈ range kk, (∑ a ∈ range s.dim, (s.set kk (p.set q t)).A a j * (at' x a - at' y a)) ^ 2)
      (∑ j ∈ range kk, 2 * (∑ a ∈ range s.dim, (s.set kk p).A a j * (at' x a - at' y a)) *
        (∑ a ∈ range s.dim, if (j + 1) * s.dim + a = q then at' x a - at' y a else 0)) (at' p q) := by
    refine HasDerivAt.fun_sum fun j hj => ?_
    have := (ard_lin_deriv kk s p hp q hq x y j (mem_range.1 hj)).fun_pow 2
    rw [at'_set_self p q (by omega)] at this
    refine this.congr_deriv ?_
    simp
  have h3 := h1.fun_add h2
  refine h3.congr_deriv ?_
  rw [sum_ite_eq']
  by_cases hq1 : q < s.dim
  · rw [if_pos (mem_range.2 hq1), if_pos hq1]
    have : ∀ j ∈ range kk, 2 * (∑ a ∈ range s.dim, (s.set kk p).A a j * (at' x a - at' y a)) *
        (∑ a ∈ range s.dim, if (j + 1) * s.dim + a = q then at' x a - at' y a else 0) = 0 := by
      intro j _
      rw [sum_eq_zero (f := fun a => if (j + 1) * s.dim + a = q then at' x a - at' y a else 0), mul_zero]
      intro a _
      apply if_neg
      intro e
      have : s.dim ≤ (j + 1) * s.dim := Nat.le_mul_of_pos_left _ (by omega)
      omega
    rw [sum_eq_zero this, add_zero]
  · rw [if_neg (by simpa using hq1), if_neg hq1, zero_add]
    by_cases hq2 : q < s.dim + s.dim * kk
    · rw [if_pos hq2]
      have hd : 0 < s.dim := by
        rcases Nat.eq_zero_or_pos s.dim with h | h
        · rw [h] at hq2; omega
        · exact h
      have hdiv : 1 ≤ q / s.dim := (Nat.one_le_div_iff hd).2 (by omega)
      have hdiv2 : q / s.dim < kk + 1 := by
        rw [Nat.div_lt_iff_lt_mul hd]; rw [Nat.add_mul, Nat.mul_comm kk]; omega
      have hdm := Nat.div_add_mod q s.dim
      rw [sum_eq_single (q / s.dim - 1)]
      · congr 1
        rw [sum_eq_single (q % s.dim)]
        · apply if_pos
          rw [Nat.sub_add_cancel hdiv, Nat.mul_comm]; exact hdm
        · intro b hb hne
          apply if_neg
          rw [Nat.sub_add_cancel hdiv, Nat.mul_comm]; omega
        · intro h; exact absurd (mem_range.2 (Nat.mod_lt _ hd)) h
      · intro j hj hne
        refine mul_eq_zero_of_right _ (sum_eq_zero fun a ha => ?_)
        apply if_neg
        intro e
        apply hne
        have : q / s.dim = j + 1 := by
          rw [← e, Nat.add_comm, Nat.add_mul_div_right _ _ hd, Nat.div_eq_of_lt (mem_range.1 ha)]
          omega
        omega
      · intro h
        exact absurd (mem_range.2 (by omega)) h
    · rw [if_neg hq2]
      apply sum_eq_zero
      intro j hj
      refine mul_eq_zero_of_right _ (sum_eq_zero fun a ha => ?_)
      apply if_neg
      have h1 := mem_range.1 hj
      have h2 := mem_range.1 ha
      have : (j + 1) * s.dim ≤ kk * s.dim := Nat.mul_le_mul_right _ h1
      rw [Nat.mul_comm kk] at this
      omega

theorem ard_deriv (kk : Nat) (sg : ℝ) (s : ArdSt) (p : List ℝ) (hp : p.length = s.size kk) (q : Nat) (hq : q < s.size kk) (x y : List ℝ) :
    HasDerivAt (fun t => (seArd kk sg).kernel (s.set kk (p.set q t)) x y) ((seArd kk sg).gradient (s.set kk p) x y q) (at' p q) := by
  simp only [seArd_kernel]
  have h := (ard_sf2_deriv kk s p hp q hq).fun_mul ((ard_z_deriv kk s p hp q hq x y).const_mul (-0.5)).exp
  rw [at'_set_self p q (by omega)] at h
  refine h.congr_deriv ?_
  have hsz : s.size kk = s.dim + s.dim * kk + 1 := rfl
  have hsz' : (s.set kk p).size kk = s.size kk := rfl
  have hdim : (s.set kk p).dim = s.dim := rfl
  have hz : (if kk > 0 then (s.set kk p).quad kk x y else ∑ i ∈ range (s.set kk p).dim, (s.set kk p).ratio x y i) = (s.set kk p).z kk x y := by
    unfold ArdSt.z
    split
    · rw [ArdSt.quad_eq]
    · rename_i h
      have : kk = 0 := by omega
      subst this
      simp
  have hg : (seArd kk sg).gradient (s.set kk p) x y q =
      if q = s.size kk - 1 then 2 * ((s.set kk p).sf2 * Real.exp (-0.5 * (s.set kk p).z kk x y))
      else if q < s.dim then (s.set kk p).ratio x y q * ((s.set kk p).sf2 * Real.exp (-0.5 * (s.set kk p).z kk x y))
      else (-(∑ a ∈ range s.dim, (at' x a - at' y a) * (s.set kk p).A a (q / s.dim - 1))) * (at' x (q % s.dim) - at' y (q % s.dim))
        * ((s.set kk p).sf2 * Real.exp (-0.5 * (s.set kk p).z kk x y)) := by
    simp only [seArd, ArdSt.size] at hz ⊢
    by_cases hk : kk > 0
    · rw [if_pos hk] at hz ⊢
      rw [hz]
      simp only [hdim]
      rfl
    · rw [if_neg hk] at hz ⊢
      rw [hz]
      have h0 : kk = 0 := by omega
      simp only [hdim]
      by_cases hq1 : q = s.dim + s.dim * kk + 1 - 1
      · simp only [if_pos hq1]
        exact (if_pos hq1).symm
      · have hlt : q < s.dim := by
          rw [hsz, h0] at hq
          rw [h0] at hq1
          omega
        simp only [if_neg hq1, if_pos hlt]
  rw [hg]
  have e1 : ∑ a ∈ range s.dim, (at' x a - at' y a) * (s.set kk p).A a (q / s.dim - 1)
      = ∑ a ∈ range s.dim, (s.set kk p).A a (q / s.dim - 1) * (at' x a - at' y a) := sum_congr rfl fun _ _ => mul_comm _ _
  rw [e1]
  by_cases hq1 : q = s.size kk - 1
  · rw [if_pos hq1, if_pos hq1]
    have n1 : ¬ q < s.dim := by omega
    have n2 : ¬ q < s.dim + s.dim * kk := by omega
    rw [if_neg n1, if_neg n2]
    ring
  · rw [if_neg hq1, if_neg hq1]
    by_cases hq2 : q < s.dim
    · rw [if_pos hq2, if_pos hq2]; ring
    · have n2 : q < s.dim + s.dim * kk := by omega
      rw [if_neg hq2, if_neg hq2, if_pos n2]; ring

end Limbo

namespace Limbo

open Finset

/-! ## invariants of reachable kernels -/

theorem take_len {p : List ℝ} {n : Nat} (h : n ≤ p.length) : (p.take n).length = n := by simp [h]

theorem noise_reach {I : KernelImpl} {P : KernelParams} {d : Nat} {k : BaseK I} (h : KReach I P d k) (ho : P.optimizeNoise = true) (hn : 0 < P.noise) :
    k.noise = Real.exp (2 * k.noiseP) := by
  cases h with
  | new =>
    show P.noise = Real.exp (2 * Real.log √P.noise)
    rw [Real.log_sqrt hn.le, mul_div_cancel₀ _ two_ne_zero, Real.exp_log hn]
  | set p _ _ =>
    unfold BaseK.setHParams
    simp only [ho, if_true]

theorem noise_pos {I : KernelImpl} {P : KernelParams} {d : Nat} {k : BaseK I} (h : KReach I P d k) (hn : 0 ≤ P.noise) : 0 ≤ k.noise := by
  induction h with
  | new => exact hn
  | set p _ _ ih =>
    unfold BaseK.setHParams
    simp only
    split
    · exact (Real.exp_pos _).le
    · exact ih

theorem setH_inner {I : KernelImpl} (P : KernelParams) (k : BaseK I) (p : List ℝ) :
    (k.setHParams P p).inner = I.setParams k.inner (p.take (I.paramsSize k.inner)) := by
  unfold BaseK.setHParams BaseK.hParamsSize
  simp only
  split <;> simp

theorem exp_reach {sg l : ℝ} (h : 0 < sg) (hl : 0 < l) {P : KernelParams} {d : Nat} {k : BaseK (expKernel sg l)} (hk : KReach _ P d k) : IsoOK k.inner := by
  cases hk with
  | new => exact IsoOK.new h hl
  | @set k0 p _ hp =>
    rw [setH_inner]
    exact IsoOK.set k0.inner (take_len (le_trans (Nat.le_add_right _ _) hp))

theorem m32_reach {sg l : ℝ} (h : 0 < sg) (hl : 0 < l) {P : KernelParams} {d : Nat} {k : BaseK (matern32 sg l)} (hk : KReach _ P d k) : IsoOK k.inner := by
  cases hk with
  | new => exact IsoOK.new h hl
  | @set k0 p _ hp =>
    rw [setH_inner]
    exact IsoOK.set k0.inner (take_len (le_trans (Nat.le_add_right _ _) hp))

theorem m52_reach {sg l : ℝ} (h : 0 < sg) (hl : 0 < l) {P : KernelParams} {d : Nat} {k : BaseK (matern52 sg l)} (hk : KReach _ P d k) : IsoOK k.inner := by
  cases hk with
  | new => exact IsoOK.new h hl
  | @set k0 p _ hp =>
    rw [setH_inner]
    exact IsoOK.set k0.inner (take_len (le_trans (Nat.le_add_right _ _) hp))

theorem ard_reach {kk : Nat} {sg : ℝ} {P : KernelParams} {d : Nat} {k : BaseK (seArd kk sg)} (hk : KReach _ P d k) :
    ArdOK kk k.inner ∧ ArdSt.dim k.inner = d := by
  induction hk with
  | new => exact ⟨ArdOK.new kk sg d, rfl⟩
  | set p _ hp ih =>
    rw [setH_inner]
    refine ⟨ArdOK.set kk _ (take_len ?_), ih.2⟩
    exact le_trans (Nat.le_add_right _ _) hp

theorem std_cov {I : KernelImpl} (hI : StdKernel I) {P : KernelParams} {d : Nat} {k : BaseK I} (hk : KReach I P d k) :
    Covariance (I.kernel k.inner) d := by
  cases hI with
  | exp h hl =>
    have := exp_reach h hl hk
    exact exp_cov _ _ _ (by rw [this.2.1]; exact (Real.exp_pos _).le) d
  | matern32 h hl =>
    have := m32_reach h hl hk
    exact m32_cov _ _ _ (by rw [this.2.1]; exact (Real.exp_pos _).le) (by rw [this.2.2]; exact Real.exp_pos _) d
  | matern52 h hl =>
    have := m52_reach h hl hk
    exact m52_cov _ _ _ (by rw [this.2.1]; exact (Real.exp_pos _).le) (by rw [this.2.2]; exact Real.exp_pos _) d
  | seArd kk h =>
    have := (ard_reach hk).1
    exact ard_cov _ _ _ (by rw [this.2.1]; exact (Real.exp_pos _).le) d

/-- `sigma² = exp(2 h)` where `h` is the last kernel parameter (before the noise) -/
theorem std_values {I : KernelImpl} (hI : StdKernel I) {P : KernelParams} {d : Nat} {k : BaseK I} (hk : KReach I P d k) (x y : List ℝ) :
    I.kernel k.inner x x = Real.exp (2 * at' (I.params k.inner) (I.paramsSize k.inner - 1)) ∧
      0 < I.kernel k.inner x y ∧ I.kernel k.inner x y ≤ Real.exp (2 * at' (I.params k.inner) (I.paramsSize k.inner - 1)) := by
  cases hI with
  | exp h hl =>
    have hh := exp_reach h hl hk
    have e : ∀ x y, (expKernel _ _).kernel k.inner x y = IsoSt.sf2 k.inner * Real.exp (-0.5 * (sqDist x y / (IsoSt.l k.inner * IsoSt.l k.inner))) := fun _ _ => rfl
    have hs : IsoSt.sf2 k.inner = Real.exp (2 * at' (IsoSt.h k.inner) 1) := hh.2.1
    have hp : 0 < IsoSt.sf2 k.inner := by rw [hs]; exact Real.exp_pos _
    rw [e, e]
    refine ⟨?_, mul_pos hp (Real.exp_pos _), ?_⟩
    · rw [sqDist_self]; simp; exact hs
    · show _ ≤ Real.exp (2 * at' (IsoSt.h k.inner) 1)
      rw [← hs]
      apply mul_le_of_le_one_right hp.le
      rw [Real.exp_le_one_iff]
      have := div_nonneg (sqDist_nonneg x y) (mul_self_nonneg (IsoSt.l k.inner))
      linarith
  | matern32 h hl =>
    have hh := m32_reach h hl hk
    have e : ∀ x y, (Limbo.matern32 _ _).kernel k.inner x y
        = IsoSt.sf2 k.inner * (1 + √3 * dist2 x y / IsoSt.l k.inner) * Real.exp (-(√3 * dist2 x y / IsoSt.l k.inner)) := fun _ _ => rfl
    have hs : IsoSt.sf2 k.inner = Real.exp (2 * at' (IsoSt.h k.inner) 1) := hh.2.1
    have hp : 0 < IsoSt.sf2 k.inner := by rw [hs]; exact Real.exp_pos _
    have hlp : 0 < IsoSt.l k.inner := by have := hh.2.2; rw [this]; exact Real.exp_pos _
    have ht : ∀ x y, 0 ≤ √3 * dist2 x y / IsoSt.l k.inner := fun x y => div_nonneg (mul_nonneg (Real.sqrt_nonneg _) (dist2_nonneg x y)) hlp.le
    rw [e, e]
    refine ⟨?_, ?_, ?_⟩
    · rw [dist2_self]; simp; exact hs
    · have := ht x y
      have := Real.exp_pos (-(√3 * dist2 x y / IsoSt.l k.inner))
      positivity
    · show _ ≤ Real.exp (2 * at' (IsoSt.h k.inner) 1)
      rw [← hs, mul_assoc]
      apply mul_le_of_le_one_right hp.le
      have h1 := Real.add_one_le_exp (√3 * dist2 x y / IsoSt.l k.inner)
      rw [Real.exp_neg, ← div_eq_mul_inv, div_le_one (Real.exp_pos _)]
      linarith
  | matern52 h hl =>
    have hh := m52_reach h hl hk
    have e : ∀ x y, (Limbo.matern52 _ _).kernel k.inner x y
        = IsoSt.sf2 k.inner * (1 + √5 * dist2 x y / IsoSt.l k.inner + 5 * (dist2 x y * dist2 x y) / (3 * (IsoSt.l k.inner * IsoSt.l k.inner)))
          * Real.exp (-(√5 * dist2 x y / IsoSt.l k.inner)) := fun _ _ => rfl
    have hs : IsoSt.sf2 k.inner = Real.exp (2 * at' (IsoSt.h k.inner) 1) := hh.2.1
    have hp : 0 < IsoSt.sf2 k.inner := by rw [hs]; exact Real.exp_pos _
    have hlp : 0 < IsoSt.l k.inner := by have := hh.2.2; rw [this]; exact Real.exp_pos _
    have ht : ∀ x y, 0 ≤ √5 * dist2 x y / IsoSt.l k.inner := fun x y => div_nonneg (mul_nonneg (Real.sqrt_nonneg _) (dist2_nonneg x y)) hlp.le
    have h2 : ∀ x y, 5 * (dist2 x y * dist2 x y) / (3 * (IsoSt.l k.inner * IsoSt.l k.inner)) = (√5 * dist2 x y / IsoSt.l k.inner) ^ 2 / 3 := by
      intro x y
      rw [div_pow, mul_pow, Real.sq_sqrt (by norm_num)]
      field_simp
    rw [e, e]
    refine ⟨?_, ?_, ?_⟩
    · rw [dist2_self]; simp; exact hs
    · have := ht x y
      rw [h2]
      have := Real.exp_pos (-(√5 * dist2 x y / IsoSt.l k.inner))
      positivity
    · show _ ≤ Real.exp (2 * at' (IsoSt.h k.inner) 1)
      rw [← hs, mul_assoc, h2]
      apply mul_le_of_le_one_right hp.le
      have h1 := Real.quadratic_le_exp_of_nonneg (ht x y)
      rw [Real.exp_neg, ← div_eq_mul_inv, div_le_one (Real.exp_pos _)]
      have := sq_nonneg (√5 * dist2 x y / IsoSt.l k.inner)
      linarith
  | seArd kk h =>
    have hh := (ard_reach hk).1
    have hs : ArdSt.sf2 k.inner = Real.exp (2 * at' (ArdSt.h k.inner) (ArdSt.size kk k.inner - 1)) := hh.2.1
    have hp : 0 < ArdSt.sf2 k.inner := by rw [hs]; exact Real.exp_pos _
    have e : ∀ x y, (Limbo.seArd kk _).kernel k.inner x y = ArdSt.sf2 k.inner * Real.exp (-0.5 * ArdSt.z kk k.inner x y) := fun x y => seArd_kernel kk _ k.inner x y
    rw [e, e]
    refine ⟨?_, mul_pos hp (Real.exp_pos _), ?_⟩
    · refine (congrArg (fun z => ArdSt.sf2 k.inner * Real.exp (-0.5 * z)) (ArdSt.z_self kk k.inner x)).trans ?_
      simp; exact hs
    · show _ ≤ Real.exp (2 * at' (ArdSt.h k.inner) (ArdSt.size kk k.inner - 1))
      rw [← hs]
      apply mul_le_of_le_one_right hp.le
      rw [Real.exp_le_one_iff]
      have := ArdSt.z_nonneg kk k.inner x y
      linarith

/-- parameters of reachable kernels -/
theorem std_params {I : KernelImpl} (hI : StdKernel I) {P : KernelParams} {d : Nat} {k : BaseK I} (hk : KReach I P d k) :
    (I.params k.inner).length = I.paramsSize k.inner ∧ I.setParams k.inner (I.params k.inner) = k.inner ∧
    (∀ p, I.params (I.setParams k.inner p) = p ∧ I.paramsSize (I.setParams k.inner p) = I.paramsSize k.inner) ∧
    I.paramsSize k.inner = I.paramsSize (I.new d) := by
  cases hI with
  | exp h hl =>
    have := exp_reach h hl hk
    exact ⟨this.1, this.set_self, fun p => ⟨rfl, rfl⟩, rfl⟩
  | matern32 h hl =>
    have := m32_reach h hl hk
    exact ⟨this.1, this.set_self, fun p => ⟨rfl, rfl⟩, rfl⟩
  | matern52 h hl =>
    have := m52_reach h hl hk
    exact ⟨this.1, this.set_self, fun p => ⟨rfl, rfl⟩, rfl⟩
  | seArd kk h =>
    have := ard_reach hk
    refine ⟨this.1.1, this.1.set_self, fun p => ⟨rfl, rfl⟩, ?_⟩
    show ArdSt.dim k.inner + ArdSt.dim k.inner * kk + 1 = d + d * kk + 1
    rw [this.2]

theorem std_deriv {I : KernelImpl} (hI : StdKernel I) (s : I.St) (p : List ℝ) (hp : p.length = I.paramsSize s) (q : Nat) (hq : q < I.paramsSize s)
    (x y : List ℝ) : HasDerivAt (fun t => I.kernel (I.setParams s (p.set q t)) x y) (I.gradient (I.setParams s p) x y q) (at' p q) := by
  cases hI with
  | exp h hl => exact exp_deriv _ _ s p hp q hq x y
  | matern32 h hl => exact m32_deriv _ _ s p hp q hq x y
  | matern52 h hl => exact m52_deriv _ _ s p hp q hq x y
  | seArd kk h => exact ard_deriv kk _ s p hp q hq x y

/-- setting parameters twice is setting them once -/
theorem std_over {I : KernelImpl} (hI : StdKernel I) (s : I.St) (p q : List ℝ) : I.setParams (I.setParams s p) q = I.setParams s q := by
  cases hI with
  | exp h hl => rfl
  | matern32 h hl => rfl
  | matern52 h hl => rfl
  | seArd kk h =>
    show ArdSt.set kk (ArdSt.set kk s p) q = ArdSt.set kk s q
    unfold ArdSt.set ArdSt.size
    simp only [ArdSt.mk.injEq, and_true, true_and]
    refine ⟨?_, ?_⟩
    · funext i; split <;> rfl
    · funext i j; split <;> rfl

theorem setH_noise {I : KernelImpl} (hI : StdKernel I) {P : KernelParams} {d : Nat} {k : BaseK I} (hk : KReach I P d k) (p : List ℝ) :
    (k.setHParams P p).noise = (if P.optimizeNoise then Real.exp (2 * at' p (I.paramsSize k.inner)) else k.noise) ∧
    (k.setHParams P p).noiseP = (if P.optimizeNoise then at' p (I.paramsSize k.inner) else k.noiseP) := by
  have hsize : ∀ p, I.paramsSize (I.setParams k.inner p) = I.paramsSize k.inner := fun p => ((std_params hI hk).2.2.1 p).2
  unfold BaseK.setHParams BaseK.hParamsSize
  simp only
  split
  · rw [hsize]; simp
  · exact ⟨rfl, rfl⟩

theorem BaseK.ext' {I : KernelImpl} {k k' : BaseK I} (h1 : k.inner = k'.inner) (h2 : k.noise = k'.noise) (h3 : k.noiseP = k'.noiseP) : k = k' := by
  cases k; cases k'; simp only at h1 h2 h3; rw [h1, h2, h3]

theorem std_over_new {I : KernelImpl} (hI : StdKernel I) {P : KernelParams} {d : Nat} {k : BaseK I} (hk : KReach I P d k) (q : List ℝ) :
    k.setHParams P q = (BaseK.mk' P d).setHParams P q := by
  induction hk with
  | new => rfl
  | @set k p hk hp ih =>
    rw [← ih]
    have hk' := KReach.set p hk hp
    have hsize : I.paramsSize (k.setHParams P p).inner = I.paramsSize k.inner := by
      rw [setH_inner]; exact ((std_params hI hk).2.2.1 _).2
    refine BaseK.ext' ?_ ?_ ?_
    · rw [setH_inner, hsize, setH_inner, setH_inner, std_over hI]
    · rw [(setH_noise hI hk' q).1, (setH_noise hI hk q).1, hsize]
      split
      · rfl
      · rename_i h; rw [(setH_noise hI hk p).1, if_neg h]
    · rw [(setH_noise hI hk' q).2, (setH_noise hI hk q).2, hsize]
      split
      · rfl
      · rename_i h; rw [(setH_noise hI hk p).2, if_neg h]

end Limbo
