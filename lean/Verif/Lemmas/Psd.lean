import Mathlib.Analysis.Matrix.Order
import Mathlib.Analysis.SpecialFunctions.ExpDeriv
import Mathlib.Analysis.SpecialFunctions.Exponential
import Mathlib.Analysis.SpecialFunctions.Exp
import Mathlib.Analysis.SpecialFunctions.Trigonometric.ArctanDeriv
import Mathlib.Analysis.SpecialFunctions.Sqrt
import Mathlib.Analysis.Calculus.Deriv.MeanValue
import Mathlib.Analysis.SpecificLimits.Normed
import Mathlib.Tactic.Linarith
import Mathlib.Tactic.FieldSimp
import Mathlib.Tactic.Ring

/-!
Positive semi-definiteness of the Gaussian and Matérn matrices.

The Gaussian case is the exponential series with the Schur product theorem.  The Matérn cases need no integral: a quadratic form
that decreases to 0 along a parameter is nonnegative, and differentiating with respect to the parameter leads back to a case
already known:
`exp(-s a)`, then `1/a`, `1/√a`, `√a` (conditionally negative), `exp(-√a)`, `(1+√a) exp(-√a)`, `(1+√a+a/3) exp(-√a)`.
-/

namespace Limbo

open Finset Filter Topology

variable {ι : Type} [Fintype ι]

/-- quadratic form of a matrix -/
def QF (M : ι → ι → ℝ) (c : ι → ℝ) : ℝ := ∑ i, ∑ j, c i * M i j * c j

/-- nonnegative quadratic form -/
def NND (M : ι → ι → ℝ) : Prop := ∀ c, 0 ≤ QF M c

theorem NND.posSemidef {M : ι → ι → ℝ} (hs : ∀ i j, M i j = M j i) (h : NND M) : (Matrix.of M).PosSemidef := by
  refine .of_dotProduct_mulVec_nonneg ?_ ?_
  · ext i j
    simp [hs i j]
  · intro x
    have := h x
    unfold QF at this
    simp only [dotProduct, Matrix.mulVec, star_trivial, mul_sum, Matrix.of_apply]
    refine le_of_le_of_eq this ?_
    exact sum_congr rfl fun i _ => sum_congr rfl fun j _ => by ring

theorem NND.of_posSemidef {M : ι → ι → ℝ} (h : (Matrix.of M).PosSemidef) : NND M := by
  intro c
  have := h.dotProduct_mulVec_nonneg c
  simp only [dotProduct, Matrix.mulVec, star_trivial, mul_sum, Matrix.of_apply] at this
  refine le_of_le_of_eq this ?_
  exact sum_congr rfl fun i _ => sum_congr rfl fun j _ => by ring

theorem NND.mul {M N : ι → ι → ℝ} (hM : NND M) (hN : NND N) (sM : ∀ i j, M i j = M j i) (sN : ∀ i j, N i j = N j i) :
    NND fun i j => M i j * N i j :=
  NND.of_posSemidef (Matrix.PosSemidef.hadamard (hM.posSemidef sM) (hN.posSemidef sN))

theorem NND.pow {M : ι → ι → ℝ} (hM : NND M) (sM : ∀ i j, M i j = M j i) (n : Nat) : NND fun i j => M i j ^ n := by
  induction n with
  | zero =>
    intro c
    have : QF (fun i j => M i j ^ 0) c = (∑ i, c i) * ∑ i, c i := by
      unfold QF
      simp only [pow_zero, mul_one]
      rw [Finset.sum_mul_sum]
    rw [this]; exact mul_self_nonneg _
  | succ n ih =>
    simp only [pow_succ]
    exact ih.mul hM (fun i j => by rw [sM i j]) sM

/-- Gram matrices -/
theorem NND.gram {κ : Type} (r : Finset κ) (φ : ι → κ → ℝ) : NND fun i j => ∑ a ∈ r, φ i a * φ j a := by
  intro c
  have : QF (fun i j => ∑ a ∈ r, φ i a * φ j a) c = ∑ a ∈ r, (∑ i, c i * φ i a) * ∑ i, c i * φ i a := by
    unfold QF
    have e : ∀ i j, c i * (∑ a ∈ r, φ i a * φ j a) * c j = ∑ a ∈ r, c i * φ i a * (c j * φ j a) := by
      intro i j
      rw [mul_sum, sum_mul]
      exact sum_congr rfl fun a _ => by ring
    simp only [e]
    simp only [Finset.sum_mul_sum]
    rw [sum_comm' (s := univ) (t := fun _ => univ) (s' := fun _ => univ) (t' := univ) (by simp)]
    rw [sum_comm]
    rw [sum_comm]
    have : ∀ j : ι, ∑ i, ∑ a ∈ r, c i * φ i a * (c j * φ j a) = ∑ a ∈ r, ∑ i, c i * φ i a * (c j * φ j a) := fun j => sum_comm
    simp only [this]
    rw [sum_comm]
    exact sum_congr rfl fun a _ => sum_comm
  rw [this]
  exact sum_nonneg fun a _ => mul_self_nonneg _

theorem QF.scale (M : ι → ι → ℝ) (d c : ι → ℝ) : QF (fun i j => d i * M i j * d j) c = QF M fun i => c i * d i :=
  sum_congr rfl fun i _ => sum_congr rfl fun j _ => by ring

theorem NND.scale {M : ι → ι → ℝ} (h : NND M) (d : ι → ℝ) : NND fun i j => d i * M i j * d j := by
  intro c; rw [QF.scale]; exact h _

theorem QF.smul (M : ι → ι → ℝ) (s : ℝ) (c : ι → ℝ) : QF (fun i j => s * M i j) c = s * QF M c := by
  unfold QF
  rw [mul_sum]
  refine sum_congr rfl fun i _ => ?_
  rw [mul_sum]
  exact sum_congr rfl fun j _ => by ring

theorem NND.smul {M : ι → ι → ℝ} (h : NND M) {s : ℝ} (hs : 0 ≤ s) : NND fun i j => s * M i j := by
  intro c; rw [QF.smul]; exact mul_nonneg hs (h c)

theorem NND.exp {M : ι → ι → ℝ} (hM : NND M) (sM : ∀ i j, M i j = M j i) : NND fun i j => Real.exp (M i j) := by
  intro c
  have h1 : ∀ i j, HasSum (fun n : ℕ => c i * (M i j ^ n / n.factorial) * c j) (c i * Real.exp (M i j) * c j) := by
    intro i j
    have := NormedSpace.expSeries_div_hasSum_exp (𝔸 := ℝ) (M i j)
    rw [← Real.exp_eq_exp_ℝ] at this
    exact (this.mul_left (c i)).mul_right (c j)
  have h2 : HasSum (fun n : ℕ => ∑ i, ∑ j, c i * (M i j ^ n / n.factorial) * c j) (∑ i, ∑ j, c i * Real.exp (M i j) * c j) :=
    hasSum_sum fun i _ => hasSum_sum fun j _ => h1 i j
  refine h2.nonneg fun n => ?_
  have := hM.pow sM n |>.smul (s := 1 / n.factorial) (by positivity) c
  unfold QF at this
  refine le_of_le_of_eq this ?_
  exact sum_congr rfl fun i _ => sum_congr rfl fun j _ => by ring

/-- squared distances of feature vectors -/
def sqd {κ : Type} (r : Finset κ) (φ : ι → κ → ℝ) (i j : ι) : ℝ := ∑ a ∈ r, (φ i a - φ j a) ^ 2

theorem sqd_nonneg {κ : Type} (r : Finset κ) (φ : ι → κ → ℝ) (i j : ι) : 0 ≤ sqd r φ i j := sum_nonneg fun _ _ => sq_nonneg _

theorem sqd_symm {κ : Type} (r : Finset κ) (φ : ι → κ → ℝ) (i j : ι) : sqd r φ i j = sqd r φ j i :=
  sum_congr rfl fun _ _ => by ring

theorem gauss_nnd {κ : Type} (r : Finset κ) (φ : ι → κ → ℝ) {s w : ℝ} (hs : 0 ≤ s) : NND fun i j => Real.exp (-(s * (sqd r φ i j + w))) := by
  have h1 : NND fun i j => Real.exp (2 * s * ∑ a ∈ r, φ i a * φ j a) := by
    refine NND.exp (NND.smul (NND.gram r φ) (by linarith)) ?_
    intro i j
    congr 1
    exact sum_congr rfl fun a _ => mul_comm _ _
  have h2 := (h1.scale fun i => Real.exp (-(s * ∑ a ∈ r, φ i a ^ 2))).smul (Real.exp_nonneg (-(s * w)))
  intro c
  refine le_of_le_of_eq (h2 c) ?_
  refine sum_congr rfl fun i _ => sum_congr rfl fun j _ => ?_
  congr 2
  simp only
  rw [← Real.exp_add, ← Real.exp_add, ← Real.exp_add]
  congr 1
  have : sqd r φ i j = ∑ a ∈ r, φ i a ^ 2 + ∑ a ∈ r, φ j a ^ 2 - 2 * ∑ a ∈ r, φ i a * φ j a := by
    unfold sqd
    rw [mul_sum, ← sum_add_distrib, ← sum_sub_distrib]
    exact sum_congr rfl fun a _ => by ring
  rw [this]; ring

/-! ### quadratic forms along a parameter -/

theorem antitone_limit {F F' : ℝ → ℝ} (hc : ContinuousOn F (Set.Ici 0)) (hd : ∀ w > 0, HasDerivAt F (F' w) w) (hn : ∀ w > 0, F' w ≤ 0)
    {l : ℝ} (hl : Tendsto F atTop (𝓝 l)) : l ≤ F 0 := by
  have ha : AntitoneOn F (Set.Ici 0) := by
    refine antitoneOn_of_deriv_nonpos (convex_Ici 0) hc ?_ ?_
    · intro x hx
      rw [interior_Ici] at hx
      exact (hd x hx).differentiableAt.differentiableWithinAt
    · intro x hx
      rw [interior_Ici] at hx
      rw [(hd x hx).deriv]; exact hn x hx
  refine le_of_tendsto hl ?_
  filter_upwards [eventually_ge_atTop 0] with w hw
  exact ha (Set.mem_Ici.2 le_rfl) (Set.mem_Ici.2 hw) hw

theorem monotone_limit {F F' : ℝ → ℝ} (hc : ContinuousOn F (Set.Ici 0)) (hd : ∀ w > 0, HasDerivAt F (F' w) w) (hn : ∀ w > 0, 0 ≤ F' w)
    {l : ℝ} (hl : Tendsto F atTop (𝓝 l)) : F 0 ≤ l := by
  have := antitone_limit (F := fun w => -F w) (F' := fun w => -F' w) hc.neg (fun w hw => (hd w hw).neg) (fun w hw => by linarith [hn w hw]) hl.neg
  linarith

theorem QF.hasDeriv {f : ι → ι → ℝ → ℝ} {f' : ι → ι → ℝ} {w : ℝ} (h : ∀ i j, HasDerivAt (f i j) (f' i j) w) (c : ι → ℝ) :
    HasDerivAt (fun w => QF (fun i j => f i j w) c) (QF f' c) w := by
  unfold QF
  refine HasDerivAt.fun_sum fun i _ => HasDerivAt.fun_sum fun j _ => ?_
  exact ((h i j).const_mul (c i)).mul_const (c j)

theorem QF.continuousOn {f : ι → ι → ℝ → ℝ} {s : Set ℝ} (h : ∀ i j, ContinuousOn (f i j) s) (c : ι → ℝ) :
    ContinuousOn (fun w => QF (fun i j => f i j w) c) s := by
  unfold QF
  refine continuousOn_finsetSum _ fun i _ => continuousOn_finsetSum _ fun j _ => ?_
  exact (continuousOn_const.mul (h i j)).mul continuousOn_const

theorem QF.tendsto {f : ι → ι → ℝ → ℝ} {l : ι → ι → ℝ} (h : ∀ i j, Tendsto (f i j) atTop (𝓝 (l i j))) (c : ι → ℝ) :
    Tendsto (fun w => QF (fun i j => f i j w) c) atTop (𝓝 (QF l c)) := by
  unfold QF
  refine tendsto_finsetSum _ fun i _ => tendsto_finsetSum _ fun j _ => ?_
  exact (tendsto_const_nhds.mul (h i j)).mul tendsto_const_nhds

theorem QF.zero (c : ι → ℝ) : QF (fun _ _ => (0 : ℝ)) c = 0 := by simp [QF]

variable {κ : Type} (r : Finset κ) (φ : ι → κ → ℝ)

theorem inv_nnd {w : ℝ} (hw : 0 < w) : NND fun i j => 1 / (sqd r φ i j + w) := by
  intro c
  have hpos : ∀ i j, 0 < sqd r φ i j + w := fun i j => by linarith [sqd_nonneg r φ i j]
  have hd : ∀ s > 0, HasDerivAt (fun s => QF (fun i j => Real.exp (-(s * (sqd r φ i j + w))) / (sqd r φ i j + w)) c)
      (QF (fun i j => -Real.exp (-(s * (sqd r φ i j + w)))) c) s := by
    intro s _
    refine QF.hasDeriv (fun i j => ?_) c
    have h1 : HasDerivAt (fun s => -(s * (sqd r φ i j + w))) (-(sqd r φ i j + w)) s := by
      have := ((hasDerivAt_id' s).mul_const (sqd r φ i j + w)).fun_neg
      rw [one_mul] at this
      exact this
    have := h1.exp.div_const (sqd r φ i j + w)
    refine this.congr_deriv ?_
    have := (hpos i j).ne'
    field_simp
  have hc : ContinuousOn (fun s => QF (fun i j => Real.exp (-(s * (sqd r φ i j + w))) / (sqd r φ i j + w)) c) (Set.Ici 0) := by
    refine QF.continuousOn (f := fun i j s => Real.exp (-(s * (sqd r φ i j + w))) / (sqd r φ i j + w)) (fun i j => ?_) c
    fun_prop
  have hl : Tendsto (fun s => QF (fun i j => Real.exp (-(s * (sqd r φ i j + w))) / (sqd r φ i j + w)) c) atTop (𝓝 0) := by
    have : Tendsto (fun s => QF (fun i j => Real.exp (-(s * (sqd r φ i j + w))) / (sqd r φ i j + w)) c) atTop (𝓝 (QF (fun _ _ => (0 : ℝ)) c)) := by
      refine QF.tendsto (f := fun i j s => Real.exp (-(s * (sqd r φ i j + w))) / (sqd r φ i j + w)) (fun i j => ?_) c
      have h0 : Tendsto (fun s : ℝ => s * (sqd r φ i j + w)) atTop atTop := tendsto_id.atTop_mul_const (hpos i j)
      have := (Real.tendsto_exp_neg_atTop_nhds_zero.comp h0).div_const (sqd r φ i j + w)
      simpa using this
    rwa [QF.zero] at this
  have := antitone_limit hc hd (fun s hs => ?_) hl
  · simpa using this
  · have h := gauss_nnd r φ (w := w) hs.le c
    have e : QF (fun i j => -Real.exp (-(s * (sqd r φ i j + w)))) c = -QF (fun i j => Real.exp (-(s * (sqd r φ i j + w)))) c := by
      have := QF.smul (fun i j => Real.exp (-(s * (sqd r φ i j + w)))) (-1) c
      simpa using this
    rw [e]; linarith

theorem inv_sqrt_nnd {w : ℝ} (hw : 0 < w) : NND fun i j => 1 / √(sqd r φ i j + w) := by
  intro c
  have hpos : ∀ i j, 0 < sqd r φ i j + w := fun i j => by linarith [sqd_nonneg r φ i j]
  have hsp : ∀ i j, 0 < √(sqd r φ i j + w) := fun i j => Real.sqrt_pos.2 (hpos i j)
  have hd : ∀ u > 0, HasDerivAt (fun u => QF (fun i j => Real.arctan (√u / √(sqd r φ i j + w)) / √(sqd r φ i j + w)) c)
      (QF (fun i j => 1 / (2 * √u) * (1 / (sqd r φ i j + (w + u)))) c) u := by
    intro u hu
    refine QF.hasDeriv (fun i j => ?_) c
    have h1 := ((Real.hasDerivAt_sqrt hu.ne').div_const √(sqd r φ i j + w)).arctan.div_const √(sqd r φ i j + w)
    refine h1.congr_deriv ?_
    have e1 : √(sqd r φ i j + w) ^ 2 = sqd r φ i j + w := Real.sq_sqrt (hpos i j).le
    have e2 : √u ^ 2 = u := Real.sq_sqrt hu.le
    have h3 := (hsp i j).ne'
    have h4 := (Real.sqrt_pos.2 hu).ne'
    have h5 : sqd r φ i j + (w + u) ≠ 0 := by linarith [hpos i j]
    have h6 : sqd r φ i j + (w + u) = √(sqd r φ i j + w) ^ 2 + √u ^ 2 := by rw [e1, e2]; ring
    rw [h6] at h5 ⊢
    generalize √(sqd r φ i j + w) = a at *
    generalize √u = b at *
    have h8 : 1 + (b / a) ^ 2 = (a ^ 2 + b ^ 2) / a ^ 2 := by field_simp
    rw [h8]
    field_simp
  have hc : ContinuousOn (fun u => QF (fun i j => Real.arctan (√u / √(sqd r φ i j + w)) / √(sqd r φ i j + w)) c) (Set.Ici 0) := by
    refine QF.continuousOn (f := fun i j u => Real.arctan (√u / √(sqd r φ i j + w)) / √(sqd r φ i j + w)) (fun i j => ?_) c
    fun_prop
  have hl : Tendsto (fun u => QF (fun i j => Real.arctan (√u / √(sqd r φ i j + w)) / √(sqd r φ i j + w)) c) atTop
      (𝓝 (QF (fun i j => Real.pi / 2 / √(sqd r φ i j + w)) c)) := by
    refine QF.tendsto (f := fun i j u => Real.arctan (√u / √(sqd r φ i j + w)) / √(sqd r φ i j + w)) (fun i j => ?_) c
    refine Tendsto.div_const ?_ _
    refine (tendsto_nhds_of_tendsto_nhdsWithin Real.tendsto_arctan_atTop).comp ?_
    exact Real.tendsto_sqrt_atTop.atTop_div_const (hsp i j)
  have hmain := monotone_limit hc hd (fun u hu => ?_) hl
  · simp only [Real.sqrt_zero, zero_div, Real.arctan_zero] at hmain
    rw [QF.zero] at hmain
    have e : QF (fun i j => Real.pi / 2 / √(sqd r φ i j + w)) c = Real.pi / 2 * QF (fun i j => 1 / √(sqd r φ i j + w)) c := by
      rw [← QF.smul]
      congr 1
      funext i j
      rw [mul_one_div]
    rw [e] at hmain
    have := Real.pi_pos
    exact nonneg_of_mul_nonneg_right hmain (by linarith)
  · rw [QF.smul]
    exact mul_nonneg (by positivity) (inv_nnd r φ (by linarith) c)

theorem sqrt_add_hasDeriv {a w : ℝ} (h : 0 < a + w) : HasDerivAt (fun w => √(a + w)) (1 / (2 * √(a + w))) w := by
  have := (Real.hasDerivAt_sqrt h.ne').comp w ((hasDerivAt_id' w).const_add a)
  rw [mul_one] at this
  exact this

theorem tendsto_sqrt_sub (a : ℝ) (ha : 0 ≤ a) : Tendsto (fun u => √(a + u) - √u) atTop (𝓝 0) := by
  have h1 : Tendsto (fun u : ℝ => a / √u) atTop (𝓝 0) := Tendsto.div_atTop tendsto_const_nhds Real.tendsto_sqrt_atTop
  refine tendsto_of_tendsto_of_tendsto_of_le_of_le' tendsto_const_nhds h1 ?_ ?_
  · filter_upwards [eventually_gt_atTop 0] with u _
    have := Real.sqrt_le_sqrt (show u ≤ a + u by linarith)
    linarith
  · filter_upwards [eventually_gt_atTop 0] with u hu
    have hs := Real.sqrt_pos.2 hu
    rw [le_div_iff₀ hs]
    have e1 := Real.mul_self_sqrt hu.le
    have e2 := Real.mul_self_sqrt (show 0 ≤ a + u by linarith)
    have := Real.sqrt_le_sqrt (show u ≤ a + u by linarith)
    nlinarith

/-- `√(a)` is conditionally negative definite -/
theorem sqrt_cnd {w : ℝ} (hw : 0 ≤ w) (c : ι → ℝ) (hc0 : ∑ i, c i = 0) : QF (fun i j => √(sqd r φ i j + w)) c ≤ 0 := by
  have hpos : ∀ i j (u : ℝ), 0 < u → 0 < sqd r φ i j + w + u := fun i j u hu => by linarith [sqd_nonneg r φ i j]
  have hd : ∀ u > 0, HasDerivAt (fun u => QF (fun i j => √(sqd r φ i j + w + u)) c)
      (QF (fun i j => 1 / (2 * √(sqd r φ i j + w + u))) c) u := by
    intro u hu
    exact QF.hasDeriv (f := fun i j u => √(sqd r φ i j + w + u)) (fun i j => sqrt_add_hasDeriv (hpos i j u hu)) c
  have hc : ContinuousOn (fun u => QF (fun i j => √(sqd r φ i j + w + u)) c) (Set.Ici 0) := by
    refine QF.continuousOn (f := fun i j u => √(sqd r φ i j + w + u)) (fun i j => ?_) c
    fun_prop
  have hconst : ∀ u, QF (fun _ _ => √u) c = 0 := by
    intro u
    unfold QF
    have : ∀ i, ∑ j, c i * √u * c j = 0 := fun i => by rw [← mul_sum, hc0, mul_zero]
    simp [this]
  have hl : Tendsto (fun u => QF (fun i j => √(sqd r φ i j + w + u)) c) atTop (𝓝 0) := by
    have : Tendsto (fun u => QF (fun i j => √(sqd r φ i j + w + u) - √u) c) atTop (𝓝 (QF (fun _ _ => (0 : ℝ)) c)) :=
      QF.tendsto (f := fun i j u => √(sqd r φ i j + w + u) - √u) (fun i j => tendsto_sqrt_sub _ (by linarith [sqd_nonneg r φ i j])) c
    rw [QF.zero] at this
    refine this.congr fun u => ?_
    have : QF (fun i j => √(sqd r φ i j + w + u) - √u) c = QF (fun i j => √(sqd r φ i j + w + u)) c - QF (fun _ _ => √u) c := by
      unfold QF
      rw [← sum_sub_distrib]
      refine sum_congr rfl fun i _ => ?_
      rw [← sum_sub_distrib]
      exact sum_congr rfl fun j _ => by ring
    rw [this, hconst, sub_zero]
  have := monotone_limit hc hd (fun u hu => ?_) hl
  · simpa using this
  · have h := (inv_sqrt_nnd r φ (show 0 < w + u by linarith)).smul (show (0:ℝ) ≤ 1 / 2 by norm_num) c
    refine le_of_le_of_eq h ?_
    congr 1
    funext i j
    rw [add_assoc, one_div_mul_one_div]

/-- Schoenberg: the exponential of minus a conditionally negative definite matrix is positive semi-definite -/
theorem schoenberg {ψ : ι → ι → ℝ} (sψ : ∀ i j, ψ i j = ψ j i) (h : ∀ c : ι → ℝ, ∑ i, c i = 0 → QF ψ c ≤ 0) :
    NND fun i j => Real.exp (-ψ i j) := by
  classical
  by_cases hι : Nonempty ι
  · obtain ⟨o⟩ := hι
    have hP : NND fun i j => ψ i o + ψ o j - ψ i j - ψ o o := by
      intro c
      set S := ∑ i, c i with hS
      have hsum : ∑ i, (c i - if i = o then S else 0) = 0 := by
        rw [sum_sub_distrib]; simp [hS]
      have h1 := h _ hsum
      have e1 : QF ψ (fun i => c i - if i = o then S else 0)
          = QF ψ c - S * (∑ i, c i * ψ i o) - S * (∑ j, ψ o j * c j) + S * S * ψ o o := by
        unfold QF
        have : ∀ i j, (c i - if i = o then S else 0) * ψ i j * (c j - if j = o then S else 0)
            = c i * ψ i j * c j - (if j = o then S * (c i * ψ i j) else 0) - (if i = o then S * (ψ i j * c j) else 0)
              + (if i = o then (if j = o then S * S * ψ i j else 0) else 0) := by
          intro i j
          by_cases hi : i = o <;> by_cases hj : j = o <;> simp [hi, hj] <;> ring
        simp only [this, sum_add_distrib, sum_sub_distrib]
        simp only [sum_ite_eq', mem_univ, if_true]
        rw [mul_sum (f := fun i => c i * ψ i o), mul_sum (f := fun j => ψ o j * c j)]
        have e2 : ∑ i, ∑ j, (if i = o then S * (ψ i j * c j) else 0) = ∑ j, S * (ψ o j * c j) := by
          rw [sum_comm]
          exact sum_congr rfl fun j _ => by simp
        have e3 : ∑ i, ∑ j, (if i = o then (if j = o then S * S * ψ i j else 0) else 0) = S * S * ψ o o := by
          rw [sum_comm]
          simp
        rw [e2, e3]
      have e4 : QF (fun i j => ψ i o + ψ o j - ψ i j - ψ o o) c
          = S * (∑ i, c i * ψ i o) + S * (∑ j, ψ o j * c j) - QF ψ c - S * S * ψ o o := by
        unfold QF
        have : ∀ i j, c i * (ψ i o + ψ o j - ψ i j - ψ o o) * c j
            = c i * ψ i o * c j + c i * (ψ o j * c j) - c i * ψ i j * c j - c i * c j * ψ o o := by intro i j; ring
        simp only [this, sum_add_distrib, sum_sub_distrib]
        congr 1
        · congr 1
          congr 1
          · rw [hS, mul_comm, Finset.sum_mul_sum]
          · rw [hS, Finset.sum_mul_sum]
        · simp only [← sum_mul]
          congr 1
          rw [hS, Finset.sum_mul_sum]
      rw [e4]; rw [e1] at h1; linarith
    have hexp := (hP.exp fun i j => by rw [sψ i o, sψ o j, sψ i j]; ring).scale (fun i => Real.exp (-ψ i o)) |>.smul (Real.exp_nonneg (ψ o o))
    intro c
    refine le_of_le_of_eq (hexp c) ?_
    refine sum_congr rfl fun i _ => sum_congr rfl fun j _ => ?_
    congr 2
    simp only
    rw [← Real.exp_add, ← Real.exp_add, ← Real.exp_add]
    congr 1
    rw [sψ o j]; ring
  · intro c
    unfold QF
    rw [not_nonempty_iff] at hι
    simp

theorem exp_sqrt_nnd {w : ℝ} (hw : 0 ≤ w) : NND fun i j => Real.exp (-√(sqd r φ i j + w)) :=
  schoenberg (fun i j => by rw [sqd_symm]) fun c hc => sqrt_cnd r φ hw c hc

theorem tendsto_sqrt_add (a : ℝ) : Tendsto (fun u => √(a + u)) atTop atTop :=
  Real.tendsto_sqrt_atTop.comp (tendsto_atTop_add_const_left _ _ tendsto_id)

theorem matern32_nnd {w : ℝ} (hw : 0 ≤ w) : NND fun i j => (1 + √(sqd r φ i j + w)) * Real.exp (-√(sqd r φ i j + w)) := by
  intro c
  have hpos : ∀ i j (u : ℝ), 0 < u → 0 < sqd r φ i j + w + u := fun i j u hu => by linarith [sqd_nonneg r φ i j]
  have hd : ∀ u > 0, HasDerivAt (fun u => QF (fun i j => (1 + √(sqd r φ i j + w + u)) * Real.exp (-√(sqd r φ i j + w + u))) c)
      (QF (fun i j => (-1 / 2) * Real.exp (-√(sqd r φ i j + (w + u)))) c) u := by
    intro u hu
    refine QF.hasDeriv (f := fun i j u => (1 + √(sqd r φ i j + w + u)) * Real.exp (-√(sqd r φ i j + w + u))) (fun i j => ?_) c
    have h1 := sqrt_add_hasDeriv (hpos i j u hu)
    refine ((h1.const_add 1).fun_mul h1.fun_neg.exp).congr_deriv ?_
    have := (Real.sqrt_pos.2 (hpos i j u hu)).ne'
    rw [← add_assoc]
    generalize √(sqd r φ i j + w + u) = s at *
    field_simp
    ring
  have hc : ContinuousOn (fun u => QF (fun i j => (1 + √(sqd r φ i j + w + u)) * Real.exp (-√(sqd r φ i j + w + u))) c) (Set.Ici 0) := by
    refine QF.continuousOn (f := fun i j u => (1 + √(sqd r φ i j + w + u)) * Real.exp (-√(sqd r φ i j + w + u))) (fun i j => ?_) c
    fun_prop
  have hl : Tendsto (fun u => QF (fun i j => (1 + √(sqd r φ i j + w + u)) * Real.exp (-√(sqd r φ i j + w + u))) c) atTop (𝓝 0) := by
    have : Tendsto (fun u => QF (fun i j => (1 + √(sqd r φ i j + w + u)) * Real.exp (-√(sqd r φ i j + w + u))) c) atTop
        (𝓝 (QF (fun _ _ => (0 : ℝ)) c)) := by
      refine QF.tendsto (f := fun i j u => (1 + √(sqd r φ i j + w + u)) * Real.exp (-√(sqd r φ i j + w + u))) (fun i j => ?_) c
      have h0 := Real.tendsto_exp_neg_atTop_nhds_zero
      have h1 := Real.tendsto_pow_mul_exp_neg_atTop_nhds_zero 1
      have h2 := (h0.add h1).comp (tendsto_sqrt_add (sqd r φ i j + w))
      simp only [add_zero] at h2
      refine h2.congr fun u => ?_
      simp only [Function.comp]
      ring
    rwa [QF.zero] at this
  have := antitone_limit hc hd (fun u hu => ?_) hl
  · simpa using this
  · rw [QF.smul]
    have := exp_sqrt_nnd r φ (show 0 ≤ w + u by linarith) c
    linarith

theorem matern52_nnd {w : ℝ} (hw : 0 ≤ w) :
    NND fun i j => (1 + √(sqd r φ i j + w) + (sqd r φ i j + w) / 3) * Real.exp (-√(sqd r φ i j + w)) := by
  intro c
  have hpos : ∀ i j (u : ℝ), 0 < u → 0 < sqd r φ i j + w + u := fun i j u hu => by linarith [sqd_nonneg r φ i j]
  have hd : ∀ u > 0, HasDerivAt
      (fun u => QF (fun i j => (1 + √(sqd r φ i j + w + u) + (sqd r φ i j + w + u) / 3) * Real.exp (-√(sqd r φ i j + w + u))) c)
      (QF (fun i j => (-1 / 6) * ((1 + √(sqd r φ i j + (w + u))) * Real.exp (-√(sqd r φ i j + (w + u))))) c) u := by
    intro u hu
    refine QF.hasDeriv (f := fun i j u => (1 + √(sqd r φ i j + w + u) + (sqd r φ i j + w + u) / 3) * Real.exp (-√(sqd r φ i j + w + u)))
      (fun i j => ?_) c
    have h1 := sqrt_add_hasDeriv (hpos i j u hu)
    have h2 : HasDerivAt (fun u => (sqd r φ i j + w + u) / 3) (1 / 3) u := ((hasDerivAt_id u).const_add _).div_const 3
    refine (((h1.const_add 1).fun_add h2).fun_mul h1.fun_neg.exp).congr_deriv ?_
    have h3 := (Real.sqrt_pos.2 (hpos i j u hu)).ne'
    have h4 := Real.sq_sqrt (hpos i j u hu).le
    rw [← add_assoc]
    clear h1
    generalize √(sqd r φ i j + w + u) = s at *
    rw [← h4]
    field_simp
    ring
  have hc : ContinuousOn
      (fun u => QF (fun i j => (1 + √(sqd r φ i j + w + u) + (sqd r φ i j + w + u) / 3) * Real.exp (-√(sqd r φ i j + w + u))) c) (Set.Ici 0) := by
    refine QF.continuousOn
      (f := fun i j u => (1 + √(sqd r φ i j + w + u) + (sqd r φ i j + w + u) / 3) * Real.exp (-√(sqd r φ i j + w + u))) (fun i j => ?_) c
    fun_prop
  have hl : Tendsto
      (fun u => QF (fun i j => (1 + √(sqd r φ i j + w + u) + (sqd r φ i j + w + u) / 3) * Real.exp (-√(sqd r φ i j + w + u))) c) atTop (𝓝 0) := by
    have : Tendsto
        (fun u => QF (fun i j => (1 + √(sqd r φ i j + w + u) + (sqd r φ i j + w + u) / 3) * Real.exp (-√(sqd r φ i j + w + u))) c) atTop
        (𝓝 (QF (fun _ _ => (0 : ℝ)) c)) := by
      refine QF.tendsto (f := fun i j u => (1 + √(sqd r φ i j + w + u) + (sqd r φ i j + w + u) / 3) * Real.exp (-√(sqd r φ i j + w + u)))
        (fun i j => ?_) c
      have h0 := Real.tendsto_exp_neg_atTop_nhds_zero
      have h1 := Real.tendsto_pow_mul_exp_neg_atTop_nhds_zero 1
      have h2 := (Real.tendsto_pow_mul_exp_neg_atTop_nhds_zero 2).div_const 3
      have h3 := ((h0.add h1).add h2).comp (tendsto_sqrt_add (sqd r φ i j + w))
      simp only [add_zero, zero_div] at h3
      refine h3.congr' ?_
      filter_upwards [eventually_gt_atTop 0] with u hu
      simp only [Function.comp]
      rw [Real.sq_sqrt (hpos i j u hu).le]
      ring
    rwa [QF.zero] at this
  have := antitone_limit hc hd (fun u hu => ?_) hl
  · simpa using this
  · rw [QF.smul]
    have := matern32_nnd r φ (show 0 ≤ w + u by linarith) c
    linarith

end Limbo
