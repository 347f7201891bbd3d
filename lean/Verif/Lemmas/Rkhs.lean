import Verif.Spec.Rkhs
import Verif.Lemmas.Psd
import Mathlib.Algebra.QuadraticDiscriminant

/-! The textbook posterior (`postMean`, `postVar`): its variance is the smallest error variance of a linear predictor; it is at most `s / n` at a point
observed `n` times; and the mean is within `B` standard deviations of every function of norm at most `B` that agrees with the data. -/

namespace Limbo

open Matrix Finset

variable {k : List ℝ → List ℝ → ℝ} {d : Nat} {s : ℝ} {xs : List (List ℝ)}

theorem Covariance.nnd (hk : Covariance k d) {ι : Type} [Fintype ι] (p : ι → List ℝ) (hp : ∀ i, (p i).length = d) : NND fun i j => k (p i) (p j) := by
  intro c
  let e := Fintype.equivFin ι
  let q : Fin (Fintype.card ι) → List ℝ := fun i => p (e.symm i)
  have hl : (List.ofFn q).length = Fintype.card ι := List.length_ofFn
  have h := hk.psd (List.ofFn q) (by intro x hx; obtain ⟨i, rfl⟩ := (List.mem_ofFn' _ _).1 hx; exact hp _) (fun i => c (e.symm (Fin.cast hl i)))
  have hE : ∀ i : Fin (List.ofFn q).length, (List.ofFn q)[i] = p (((finCongr hl).trans e.symm) i) := by intro i; simp [q]; rfl
  refine h.trans_eq ?_
  unfold QF
  refine Fintype.sum_equiv ((finCongr hl).trans e.symm) _ _ fun i => Fintype.sum_equiv ((finCongr hl).trans e.symm) _ _ fun j => ?_
  rw [hE i, hE j]
  rfl

theorem gramM_mulVec (w : Fin xs.length → ℝ) (i : Fin xs.length) : (gramM k s xs *ᵥ w) i = ∑ j, k xs[i] xs[j] * w j + s * w i := by
  simp [gramM, mulVec, dotProduct, add_mul, sum_add_distrib]

theorem gramM_quad (u w : Fin xs.length → ℝ) :
    u ⬝ᵥ (gramM k s xs *ᵥ w) = ∑ i, ∑ j, u i * k xs[i] xs[j] * w j + s * ∑ i, u i * w i := by
  simp only [dotProduct, gramM_mulVec, mul_add, sum_add_distrib, mul_sum]
  congr 1
  · exact sum_congr rfl fun i _ => sum_congr rfl fun j _ => by ring
  · exact sum_congr rfl fun i _ => by ring

theorem gramM_symm (hk : Covariance k d) (hx : ∀ x ∈ xs, x.length = d) : (gramM k s xs)ᵀ = gramM k s xs := by
  ext i j
  have h : k xs[j] xs[i] = k xs[i] xs[j] := hk.symm _ _ (hx _ (List.getElem_mem j.2)) (hx _ (List.getElem_mem i.2))
  simp only [gramM, transpose_apply, of_apply, h, eq_comm (a := i)]

theorem gramM_posDef (hk : Covariance k d) (hs : 0 < s) (hx : ∀ x ∈ xs, x.length = d) : (gramM k s xs).PosDef := by
  refine .of_dotProduct_mulVec_pos ?_ fun w hw => ?_
  · have := gramM_symm (s := s) hk hx
    rw [IsHermitian, conjTranspose_eq_transpose_of_trivial]
    exact this
  · rw [star_trivial, gramM_quad]
    have h1 : (0 : ℝ) ≤ ∑ i, ∑ j, w i * k xs[i] xs[j] * w j := hk.psd xs hx w
    have h2 : 0 < ∑ i, w i * w i := by
      obtain ⟨i, hi⟩ := Function.ne_iff.1 hw
      exact sum_pos' (fun i _ => mul_self_nonneg _) ⟨i, mem_univ _, mul_self_pos.2 hi⟩
    have := mul_pos hs h2
    linarith

/-- weights of the predictor -/
noncomputable def predW (k : List ℝ → List ℝ → ℝ) (s : ℝ) (xs : List (List ℝ)) (v : List ℝ) : Fin xs.length → ℝ := (gramM k s xs)⁻¹ *ᵥ kvec k xs v

theorem gramM_predW (hk : Covariance k d) (hs : 0 < s) (hx : ∀ x ∈ xs, x.length = d) (v : List ℝ) :
    gramM k s xs *ᵥ predW k s xs v = kvec k xs v := by
  have hu := (isUnit_iff_isUnit_det _).1 (gramM_posDef hk hs hx).isUnit
  rw [predW, mulVec_mulVec, mul_nonsing_inv _ hu, one_mulVec]

theorem gramM_inv_symm (hk : Covariance k d) (hx : ∀ x ∈ xs, x.length = d) : ((gramM k s xs)⁻¹)ᵀ = (gramM k s xs)⁻¹ := by
  rw [transpose_nonsing_inv, gramM_symm hk hx]

theorem postVar_eq (v : List ℝ) : postVar k s xs v = k v v - kvec k xs v ⬝ᵥ predW k s xs v := rfl

/-- no linear predictor has a smaller error variance -/
theorem postVar_le (hk : Covariance k d) (hs : 0 < s) (hx : ∀ x ∈ xs, x.length = d) (v : List ℝ) (u : Fin xs.length → ℝ) :
    postVar k s xs v ≤ k v v - 2 * (u ⬝ᵥ kvec k xs v) + u ⬝ᵥ (gramM k s xs *ᵥ u) := by
  have h := (gramM_posDef hk hs hx).posSemidef.dotProduct_mulVec_nonneg (u - predW k s xs v)
  have hsym : predW k s xs v ⬝ᵥ (gramM k s xs *ᵥ u) = u ⬝ᵥ kvec k xs v := by
    rw [dotProduct_mulVec, ← mulVec_transpose, gramM_symm hk hx, gramM_predW hk hs hx, dotProduct_comm]
  rw [star_trivial, mulVec_sub, sub_dotProduct, dotProduct_sub, dotProduct_sub, hsym, gramM_predW hk hs hx] at h
  rw [postVar_eq, dotProduct_comm (kvec k xs v)]
  linarith

theorem sum_getElem_eq (xs : List (List ℝ)) (g : List ℝ → ℝ) : ∑ i : Fin xs.length, g xs[i] = (xs.map g).sum := by
  induction xs with
  | nil => simp
  | cons a l ih =>
    rw [List.map_cons, List.sum_cons, ← ih]
    exact Fin.sum_univ_succ _

open Classical in
theorem sum_count (xs : List (List ℝ)) (v : List ℝ) (a : ℝ) : (xs.map fun x => if x = v then a else 0).sum = (xs.count v) * a := by
  induction xs with
  | nil => simp
  | cons b l ih =>
    rw [List.map_cons, List.sum_cons, ih, List.count_cons]
    by_cases h : b = v
    · simp [h]; ring
    · simp [h]

open Classical in
/-- at a point observed `n` times the variance is at most `s / n` -/
theorem postVar_repeated (hk : Covariance k d) (hs : 0 < s) (hx : ∀ x ∈ xs, x.length = d) (v : List ℝ) (hn : 0 < xs.count v) :
    postVar k s xs v ≤ s / xs.count v := by
  have hc : (0 : ℝ) < xs.count v := by exact_mod_cast hn
  let u : Fin xs.length → ℝ := fun i => if xs[i] = v then 1 / (xs.count v : ℝ) else 0
  have hu1 : ∑ i, u i = 1 := by
    refine (sum_getElem_eq xs fun x => if x = v then 1 / (xs.count v : ℝ) else 0).trans ?_
    rw [sum_count, mul_one_div_cancel hc.ne']
  have hu2 : ∑ i, u i * u i = 1 / xs.count v := by
    have : ∀ i, u i * u i = 1 / (xs.count v : ℝ) * u i := by
      intro i
      by_cases h : xs[i] = v
      · have : u i = 1 / (xs.count v : ℝ) := if_pos h
        rw [this]
      · have : u i = 0 := if_neg h
        rw [this]; ring
    simp only [this, ← mul_sum, hu1, mul_one]
  have hk1 : ∀ i, u i * k xs[i] v = u i * k v v := by
    intro i
    by_cases h : xs[i] = v
    · rw [h]
    · have : u i = 0 := if_neg h
      rw [this]; ring
  have hk2 : ∀ i j, u i * k xs[i] xs[j] * u j = u i * k v v * u j := by
    intro i j
    by_cases h : xs[i] = v
    · by_cases h' : xs[j] = v
      · rw [h, h']
      · have : u j = 0 := if_neg h'
        rw [this]; ring
    · have : u i = 0 := if_neg h
      rw [this]; ring
  have h := postVar_le hk hs hx v u
  rw [gramM_quad] at h
  simp only [hk2, hu2] at h
  have e1 : u ⬝ᵥ kvec k xs v = k v v := by
    simp only [dotProduct, kvec, hk1, ← sum_mul, hu1, one_mul]
  have e2 : ∑ i, ∑ j, u i * k v v * u j = k v v := by
    simp only [← mul_sum, hu1, mul_one, ← sum_mul, one_mul]
  rw [e1, e2] at h
  rw [div_eq_mul_one_div]
  linarith

open Classical in
theorem sum_countP (xs : List (List ℝ)) (Q : List ℝ → Prop) (a : ℝ) : (xs.map fun x => if Q x then a else 0).sum = (xs.countP fun x => decide (Q x)) * a := by
  induction xs with
  | nil => simp
  | cons b l ih =>
    rw [List.map_cons, List.sum_cons, ih, List.countP_cons]
    by_cases h : Q b
    · simp [h]; ring
    · simp [h]

theorem Covariance.dist_nonneg (hk : Covariance k d) {x y : List ℝ} (hx : x.length = d) (hy : y.length = d) : 0 ≤ k x x - 2 * k x y + k y y := by
  have h := hk.psd [x, y] (by simp [hx, hy]) (fun i => if i.1 = 0 then 1 else -1)
  have e := hk.symm x y hx hy
  have h2 : (0 : ℝ) ≤ ∑ i : Fin 2, ∑ j : Fin 2, (if i.1 = 0 then (1 : ℝ) else -1) * k [x, y][i] [x, y][j] * (if j.1 = 0 then 1 else -1) := h
  simp only [Fin.sum_univ_two] at h2
  simp at h2
  linarith

open Classical in
/-- at a point near to `n` observed ones the variance is at most `s / n` plus the squared kernel distance -/
theorem postVar_near (hk : Covariance k d) (hs : 0 < s) (hx : ∀ x ∈ xs, x.length = d) (v : List ℝ) (Q : List ℝ → Prop) {ω : ℝ}
    (hQ : ∀ x, x.length = d → Q x → k x x - 2 * k x v + k v v ≤ ω) (hn : 0 < xs.countP fun x => decide (Q x)) :
    postVar k s xs v ≤ s / (xs.countP fun x => decide (Q x)) + ω := by
  set cnt := xs.countP fun x => decide (Q x) with hcnt
  have hc : (0 : ℝ) < cnt := by exact_mod_cast hn
  let u : Fin xs.length → ℝ := fun i => if Q xs[i] then 1 / (cnt : ℝ) else 0
  have hlen : ∀ i : Fin xs.length, (xs[i]).length = d := fun i => hx _ (List.getElem_mem i.2)
  have hu0 : ∀ i, 0 ≤ u i := by
    intro i
    by_cases h : Q xs[i]
    · have : u i = 1 / (cnt : ℝ) := if_pos h
      rw [this]; positivity
    · have : u i = 0 := if_neg h
      rw [this]
  have hu1 : ∑ i, u i = 1 := by
    refine (sum_getElem_eq xs fun x => if Q x then 1 / (cnt : ℝ) else 0).trans ?_
    rw [sum_countP, mul_one_div_cancel hc.ne']
  have hu2 : ∑ i, u i * u i = 1 / cnt := by
    have : ∀ i, u i * u i = 1 / (cnt : ℝ) * u i := by
      intro i
      by_cases h : Q xs[i]
      · have : u i = 1 / (cnt : ℝ) := if_pos h
        rw [this]
      · have : u i = 0 := if_neg h
        rw [this]; ring
    simp only [this, ← mul_sum, hu1, mul_one]
  have h1 : ∑ i, ∑ j, u i * k xs[i] xs[j] * u j ≤ ∑ i, u i * k xs[i] xs[i] := by
    have hij : ∀ i j, u i * k xs[i] xs[j] * u j ≤ (u i * k xs[i] xs[i]) * u j / 2 + u i * (u j * k xs[j] xs[j]) / 2 := by
      intro i j
      have := mul_nonneg (mul_nonneg (hu0 i) (hu0 j)) (hk.dist_nonneg (hlen i) (hlen j))
      linarith
    refine (sum_le_sum fun i _ => sum_le_sum fun j _ => hij i j).trans (le_of_eq ?_)
    simp only [sum_add_distrib, ← sum_div, ← mul_sum, hu1, mul_one]
    rw [← sum_mul, hu1]
    ring
  have h2 : ∑ i, u i * (k xs[i] xs[i] - 2 * k xs[i] v + k v v) ≤ ω := by
    have : ∀ i, u i * (k xs[i] xs[i] - 2 * k xs[i] v + k v v) ≤ u i * ω := by
      intro i
      by_cases h : Q xs[i]
      · exact mul_le_mul_of_nonneg_left (hQ _ (hlen i) h) (hu0 i)
      · have : u i = 0 := if_neg h
        rw [this]; simp
    refine (sum_le_sum fun i _ => this i).trans (le_of_eq ?_)
    rw [← sum_mul, hu1, one_mul]
  have h := postVar_le hk hs hx v u
  rw [gramM_quad, hu2] at h
  have e1 : ∑ i, u i * (k xs[i] xs[i] - 2 * k xs[i] v + k v v) = ∑ i, u i * k xs[i] xs[i] - 2 * (u ⬝ᵥ kvec k xs v) + k v v := by
    simp only [mul_add, mul_sub, sum_add_distrib, sum_sub_distrib, ← sum_mul, hu1, one_mul, dotProduct, kvec, mul_sum]
    congr 2
    exact sum_congr rfl fun i _ => by ring
  rw [e1] at h2
  rw [div_eq_mul_one_div]
  linarith

/-- Cauchy–Schwarz for the kernel -/
theorem kernel_cauchy (hk : Covariance k d) {ι κ : Type} [Fintype ι] [Fintype κ] (z : ι → List ℝ) (p : κ → List ℝ) (hz : ∀ i, (z i).length = d)
    (hp : ∀ i, (p i).length = d) (c : ι → ℝ) (e : κ → ℝ) :
    (∑ i, ∑ j, c i * k (z i) (p j) * e j) ^ 2 ≤ (∑ i, ∑ j, c i * k (z i) (z j) * c j) * ∑ i, ∑ j, e i * k (p i) (p j) * e j := by
  have h : ∀ t : ℝ, 0 ≤ (∑ i, ∑ j, c i * k (z i) (z j) * c j) * (t * t) + 2 * (∑ i, ∑ j, c i * k (z i) (p j) * e j) * t +
      ∑ i, ∑ j, e i * k (p i) (p j) * e j := by
    intro t
    have h := hk.nnd (Sum.elim z p) (by rintro (i | i) <;> simp [hz, hp]) (Sum.elim (fun i => t * c i) e)
    unfold QF at h
    simp only [Fintype.sum_sum_type, Sum.elim_inl, Sum.elim_inr, sum_add_distrib] at h
    have e1 : ∑ i, ∑ j, t * c i * k (z i) (z j) * (t * c j) = (∑ i, ∑ j, c i * k (z i) (z j) * c j) * (t * t) := by
      simp only [sum_mul]
      exact sum_congr rfl fun i _ => sum_congr rfl fun j _ => by ring
    have e2 : ∑ i, ∑ j, t * c i * k (z i) (p j) * e j = (∑ i, ∑ j, c i * k (z i) (p j) * e j) * t := by
      simp only [sum_mul]
      exact sum_congr rfl fun i _ => sum_congr rfl fun j _ => by ring
    have e3 : ∑ i, ∑ j, e i * k (p i) (z j) * (t * c j) = (∑ i, ∑ j, c i * k (z i) (p j) * e j) * t := by
      rw [sum_comm]
      simp only [sum_mul]
      exact sum_congr rfl fun i _ => sum_congr rfl fun j _ => by rw [hk.symm _ _ (hp j) (hz i)]; ring
    rw [e1, e2, e3] at h
    linarith
  have := discrim_le_zero h
  unfold discrim at this
  nlinarith

/-- the posterior mean is within `B` standard deviations of every function of norm at most `B` that agrees with the data -/
theorem postMean_confidence (hk : Covariance k d) (hs : 0 < s) (hx : ∀ x ∈ xs, x.length = d) {m : List ℝ → Nat → ℝ} {c : Nat} {B : ℝ} (hB : 0 ≤ B)
    {f : List ℝ → ℝ} (hf : InKernelBall k (fun v => m v c) d B f) {ys : List (List ℝ)} (hy : ∀ i : Fin xs.length, at' (ys.getD i []) c = f xs[i])
    (v : List ℝ) (hv : v.length = d) :
    0 ≤ postVar k s xs v ∧ |postMean k m s xs ys v c - f v| ≤ B * √(postVar k s xs v) := by
  obtain ⟨n, z, a, hz, hfz, hB2⟩ := hf
  have hlen : ∀ i : Fin xs.length, (xs[i]).length = d := fun i => hx _ (List.getElem_mem i.2)
  set w := predW k s xs v with hw
  -- the error is the inner product of `f` with the error functional
  let p : Option (Fin xs.length) → List ℝ := fun o => o.elim v fun i => xs[i]
  let e : Option (Fin xs.length) → ℝ := fun o => o.elim (-1) w
  have herr : postMean k m s xs ys v c - f v = ∑ i, ∑ j, a i * k (z i) (p j) * e j := by
    have h1 : kvec k xs v ⬝ᵥ ((gramM k s xs)⁻¹ *ᵥ resid m xs ys c) = ∑ j, w j * ∑ i, a i * k (z i) xs[j] := by
      rw [dotProduct_mulVec, ← mulVec_transpose, gramM_inv_symm hk hx]
      simp only [dotProduct]
      refine sum_congr rfl fun j _ => ?_
      rw [show resid m xs ys c j = at' (ys.getD j []) c - m xs[j] c from rfl, hy, hfz _ (hlen j)]
      rw [hw, predW]
      congr 1
      ring
    rw [postMean, h1, hfz v hv]
    simp only [Fintype.sum_option, p, e, Option.elim_none, Option.elim_some, sum_add_distrib]
    have h2 : ∑ i, ∑ j, a i * k (z i) xs[j] * w j = ∑ j, w j * ∑ i, a i * k (z i) xs[j] := by
      rw [sum_comm]
      simp only [mul_sum]
      exact sum_congr rfl fun i _ => sum_congr rfl fun j _ => by ring
    rw [h2]
    simp only [mul_neg_one, sum_neg_distrib]
    ring
  have hnorm : ∑ i, ∑ j, e i * k (p i) (p j) * e j = postVar k s xs v - s * ∑ i, w i * w i := by
    have h1 : w ⬝ᵥ (gramM k s xs *ᵥ w) = w ⬝ᵥ kvec k xs v := by rw [gramM_predW hk hs hx]
    rw [gramM_quad] at h1
    have h2 : ∑ i, w i * k xs[i] v = w ⬝ᵥ kvec k xs v := rfl
    have h3 : ∑ j, k v xs[j] * w j = w ⬝ᵥ kvec k xs v := by
      rw [← h2]
      exact sum_congr rfl fun j _ => by rw [hk.symm _ _ hv (hlen j)]; ring
    simp only [Fintype.sum_option, p, e, Option.elim_none, Option.elim_some, sum_add_distrib]
    rw [postVar_eq, dotProduct_comm, ← hw]
    have h4 : ∑ x : Fin xs.length, (-1 : ℝ) * k v xs[x] * w x = - ∑ j, k v xs[j] * w j := by
      rw [← sum_neg_distrib]; exact sum_congr rfl fun j _ => by ring
    have h5 : ∑ x, w x * k xs[x] v * -1 = - ∑ i, w i * k xs[i] v := by
      rw [← sum_neg_distrib]; exact sum_congr rfl fun j _ => by ring
    rw [h4, h5, h3, h2]
    linarith
  have hp : ∀ o, (p o).length = d := by rintro (_ | i); exacts [hv, hlen i]
  have hnn : 0 ≤ ∑ i, ∑ j, e i * k (p i) (p j) * e j := hk.nnd p hp e
  have hww : 0 ≤ s * ∑ i, w i * w i := mul_nonneg hs.le (sum_nonneg fun i _ => mul_self_nonneg _)
  have hpv : 0 ≤ postVar k s xs v := by linarith
  refine ⟨hpv, ?_⟩
  have hcs := kernel_cauchy hk z p hz hp a e
  rw [← herr, hnorm] at hcs
  rw [← Real.sqrt_sq_eq_abs]
  have : (postMean k m s xs ys v c - f v) ^ 2 ≤ B ^ 2 * postVar k s xs v := by
    refine hcs.trans ((mul_le_mul_of_nonneg_right hB2 (by rw [← hnorm]; exact hnn)).trans ?_)
    exact mul_le_mul_of_nonneg_left (by linarith) (sq_nonneg B)
  refine (Real.sqrt_le_sqrt this).trans_eq ?_
  rw [Real.sqrt_mul (sq_nonneg B), Real.sqrt_sq hB]

end Limbo
