import Verif.Lemmas.SpgpRun

/-! The gradient vector of the sparse Gaussian process, component by component; bounds of the predictive variance. -/

namespace Limbo

open Finset Matrix

theorem getD_flatMap_blocks {α : Type} {m : Nat} {F : α → List ℝ} (l : List α) (hF : ∀ x ∈ l, (F x).length = m) {k a : Nat} (hk : k < l.length) (ha : a < m) :
    (l.flatMap F).getD (k * m + a) 0 = (F l[k]).getD a 0 := by
  induction l generalizing k with
  | nil => simp at hk
  | cons x l ih =>
    have hx : (F x).length = m := hF x (by simp)
    rw [List.flatMap_cons]
    cases k with
    | zero =>
      rw [List.getD_append _ _ _ _ (by rw [hx]; omega)]
      simp
    | succ k =>
      rw [List.getD_append_right _ _ _ _ (by rw [hx, Nat.succ_mul]; omega), hx]
      have : (k + 1) * m + a - m = k * m + a := by rw [Nat.succ_mul]; omega
      rw [this, ih (fun y hy => hF y (by simp [hy])) (by simpa using hk)]
      simp

theorem length_flatMap_blocks {α : Type} {m : Nat} {F : α → List ℝ} (l : List α) (hF : ∀ x ∈ l, (F x).length = m) : (l.flatMap F).length = l.length * m := by
  induction l with
  | nil => simp
  | cons x l ih =>
    rw [List.flatMap_cons, List.length_append, hF x (by simp), ih fun y hy => hF y (by simp [hy]), List.length_cons, Nat.succ_mul]
    omega

namespace LikIn
variable (I : LikIn)

theorem dfw_blocks : ((List.finRange I.d).flatMap fun k => (List.finRange I.m).map fun a => I.dfxb a k).length = I.m * I.d := by
  rw [length_flatMap_blocks (m := I.m) _ (by simp), List.length_finRange, Nat.mul_comm]

theorem dfw_length : I.dfw.length = (I.m + 1) * I.d + 2 := by
  rw [dfw, List.length_append, List.length_append, dfw_blocks]
  simp only [List.length_map, List.length_finRange, List.length_cons, List.length_nil]
  rw [Nat.succ_mul]

theorem dfw_xb (a : Fin I.m) (k : Fin I.d) : I.dfw.getD (k * I.m + a) 0 = I.dfxb a k := by
  have hlt : k.1 * I.m + a.1 < I.m * I.d := by
    have := Nat.mul_le_mul_right I.m k.2
    rw [Nat.succ_mul] at this
    have := a.2
    rw [Nat.mul_comm I.m]
    omega
  rw [dfw, List.getD_append _ _ _ _ (by rw [List.length_append, dfw_blocks]; omega), List.getD_append _ _ _ _ (by rw [dfw_blocks]; exact hlt),
    getD_flatMap_blocks (m := I.m) _ (by simp) (by simp) a.2, List.getD_eq_getElem _ _ (by simp)]
  simp

theorem dfw_b (k : Fin I.d) : I.dfw.getD (I.m * I.d + k) 0 = I.dfb k := by
  rw [dfw, List.getD_append _ _ _ _ (by rw [List.length_append, dfw_blocks]; simp), List.getD_append_right _ _ _ _ (by rw [dfw_blocks]; omega), dfw_blocks,
    Nat.add_sub_cancel_left, List.getD_eq_getElem _ _ (by simp)]
  simp

theorem dfw_c : I.dfw.getD ((I.m + 1) * I.d) 0 = I.dfc := by
  have : ((List.finRange I.d).flatMap (fun k => (List.finRange I.m).map fun a => I.dfxb a k) ++ (List.finRange I.d).map I.dfb).length = (I.m + 1) * I.d := by
    rw [List.length_append, dfw_blocks, List.length_map, List.length_finRange, Nat.succ_mul]
  rw [dfw, List.getD_append_right _ _ _ _ (by rw [this]), this, Nat.sub_self]
  rfl

theorem dfw_sig : I.dfw.getD ((I.m + 1) * I.d + 1) 0 = I.dfsig := by
  have : ((List.finRange I.d).flatMap (fun k => (List.finRange I.m).map fun a => I.dfxb a k) ++ (List.finRange I.d).map I.dfb).length = (I.m + 1) * I.d := by
    rw [List.length_append, dfw_blocks, List.length_map, List.length_finRange, Nat.succ_mul]
  rw [dfw, List.getD_append_right _ _ _ _ (by rw [this]; omega), this, Nat.add_sub_cancel_left]
  rfl

end LikIn

namespace Spgp

theorem getD_set_deriv {w : List ℝ} {p q : Nat} (hp : p < w.length) (t : ℝ) :
    HasDerivAt (fun u => (w.set p u).getD q 0) (if q = p then 1 else 0) t := by
  by_cases e : q = p
  · subst e
    have : (fun u => (w.set q u).getD q 0) = fun u => u := by
      funext u
      rw [List.getD_eq_getElem _ _ (by simpa using hp), List.getElem_set_self]
    rw [this, if_pos rfl]
    exact hasDerivAt_id t
  · have : (fun u => (w.set p u).getD q 0) = fun _ => w.getD q 0 := by
      funext u
      rw [List.getD_eq_getElem?_getD, List.getD_eq_getElem?_getD, List.getElem?_set_ne (Ne.symm e)]
    rw [this, if_neg e]
    exact hasDerivAt_const t _

/-- The partial derivatives of the negative log likelihood are the components of the code's gradient. -/
theorem nll_partial {llt : Nat → (Nat → Nat → ℝ) → Nat → Nat → ℝ} (hl : LltContract llt) {m n d : Nat} (X : Matrix (Fin n) (Fin d) ℝ) (r : Fin n → ℝ)
    {δ : ℝ} (hδ : 0 < δ) {w : List ℝ} (hw : (m + 1) * d + 2 ≤ w.length) {p : Nat} (hp : p < (m + 1) * d + 2) :
    HasDerivAt (fun t => (SpModel.ofVec m X δ (w.set p t)).nll r) ((vecIn llt m X r δ w).dfw.getD p 0) (w.getD p 0) := by
  have hpw : p < w.length := by omega
  have hset : w.set p (w.getD p 0) = w := by rw [List.getD_eq_getElem _ _ hpw, List.set_getElem_self]
  have hok := vecIn_ok hl m X r hδ w
  have hpath := LikIn.nll_path (I := vecIn llt m X r δ w) hok (S := fun t => SpModel.ofVec m X δ (w.set p t)) (t := w.getD p 0)
    (dU := fun a k => if k.1 * m + a.1 = p then 1 else 0) (β := fun k => if m * d + k.1 = p then 1 else 0)
    (γ := if (m + 1) * d = p then 1 else 0) (δ := if (m + 1) * d + 1 = p then 1 else 0)
    (by simp only [hset]; rfl) (fun _ => rfl) (fun _ => rfl)
    (fun a k => getD_set_deriv hpw _)
    (fun k => by
      have := (getD_set_deriv (q := m * d + k.1) hpw (w.getD p 0)).exp
      simp only [hset] at this
      exact this)
    (by
      have := (getD_set_deriv (q := (m + 1) * d) hpw (w.getD p 0)).exp
      simp only [hset] at this
      exact this)
    (by
      have := (getD_set_deriv (q := (m + 1) * d + 1) hpw (w.getD p 0)).exp
      simp only [hset] at this
      exact this)
  refine hpath.congr_deriv ?_
  set I := vecIn llt m X r δ w
  have hmd : (m + 1) * d = m * d + d := Nat.succ_mul m d
  have hlt : ∀ (a : Fin m) (k : Fin d), k.1 * m + a.1 < m * d := by
    intro a k
    have := Nat.mul_le_mul_right m k.2
    rw [Nat.succ_mul] at this
    have := a.2
    rw [Nat.mul_comm m]
    omega
  change (∑ k : Fin d, ∑ a : Fin m, I.dfxb a k * (if k.1 * m + a.1 = p then 1 else 0)) + (∑ k : Fin d, I.dfb k * (if m * d + k.1 = p then 1 else 0))
      + I.dfc * (if (m + 1) * d = p then 1 else 0) + I.dfsig * (if (m + 1) * d + 1 = p then 1 else 0) = _
  rcases Nat.lt_or_ge p (m * d) with h1 | h1
  · -- a pseudo-input
    have hm : 0 < m := by
      rcases Nat.eq_zero_or_pos m with rfl | h
      · simp at h1
      · exact h
    set k0 : Fin d := ⟨p / m, by rw [Nat.div_lt_iff_lt_mul hm, Nat.mul_comm]; exact h1⟩ with hk0
    set a0 : Fin m := ⟨p % m, Nat.mod_lt _ hm⟩ with ha0
    have hpe : k0.1 * m + a0.1 = p := by simp only [hk0, ha0]; rw [Nat.mul_comm]; exact Nat.div_add_mod p m
    have z1 : ∀ k : Fin d, ¬ m * d + k.1 = p := fun k => by omega
    rw [if_neg (by omega), if_neg (by omega)]
    simp only [z1, if_false, mul_zero, sum_const_zero, add_zero]
    rw [sum_eq_single k0 ?_ (by simp), sum_eq_single a0 ?_ (by simp), if_pos hpe, mul_one, ← LikIn.dfw_xb I a0 k0]
    · exact congrArg (I.dfw.getD · 0) hpe
    · intro a _ hne
      rw [if_neg, mul_zero]
      intro e
      exact hne (Fin.ext (by omega))
    · intro k _ hne
      refine sum_eq_zero fun a _ => ?_
      rw [if_neg, mul_zero]
      intro e
      apply hne
      apply Fin.ext
      have : p / m = k.1 := by rw [← e, Nat.mul_comm, Nat.mul_add_div hm, Nat.div_eq_of_lt a.2, Nat.add_zero]
      exact this.symm
  · have z0 : ∀ (k : Fin d) (a : Fin m), ¬ k.1 * m + a.1 = p := fun k a => by have := hlt a k; omega
    simp only [z0, if_false, mul_zero, sum_const_zero, zero_add]
    rcases Nat.lt_or_ge p ((m + 1) * d) with h2 | h2
    · set k0 : Fin d := ⟨p - m * d, by omega⟩ with hk0
      have hpe : m * d + k0.1 = p := by simp only [hk0]; omega
      rw [if_neg (by omega), if_neg (by omega), mul_zero, mul_zero, add_zero, add_zero, sum_eq_single k0 ?_ (by simp), if_pos hpe, mul_one,
        ← LikIn.dfw_b I k0]
      · exact congrArg (I.dfw.getD · 0) hpe
      · intro k _ hne
        rw [if_neg, mul_zero]
        intro e
        exact hne (Fin.ext (by omega))
    · have z1 : ∀ k : Fin d, ¬ m * d + k.1 = p := fun k => by have := k.2; omega
      simp only [z1, if_false, mul_zero, sum_const_zero, zero_add]
      rcases Nat.lt_or_ge p ((m + 1) * d + 1) with h3 | h3
      · have e : (m + 1) * d = p := by omega
        rw [if_pos e, if_neg (by omega), mul_one, mul_zero, add_zero, ← LikIn.dfw_c I]
        exact congrArg (I.dfw.getD · 0) e
      · have e : (m + 1) * d + 1 = p := by omega
        rw [if_neg (by omega), if_pos e, mul_one, mul_zero, zero_add, ← LikIn.dfw_sig I]
        exact congrArg (I.dfw.getD · 0) e

end Spgp

namespace SpModel
variable {m n d : Nat} {S : SpModel m n d} (h : S.Good)
include h

theorem var_ge (x : Fin d → ℝ) : S.sig ≤ S.var x := by
  have h1 := schur h x
  have h2 : 0 ≤ S.ku x ⬝ᵥ (S.QM⁻¹ *ᵥ S.ku x) := by
    have := (QM_posDef h).inv.posSemidef.dotProduct_mulVec_nonneg (S.ku x)
    simpa using this
  rw [var, k_self, sub_mulVec, dotProduct_sub]
  linarith

theorem var_le (x : Fin d → ℝ) : S.var x ≤ S.c + S.sig := by
  have h2 : 0 ≤ S.ku x ⬝ᵥ ((S.Kuu⁻¹ - S.QM⁻¹) *ᵥ S.ku x) := by
    rw [← proj_cov_proj h]
    have := ((cov_posDef h).inv.posSemidef.mul_mul_conjTranspose_same S.proj).dotProduct_mulVec_nonneg (S.ku x)
    simpa using this
  rw [var, k_self]
  linarith

end SpModel
end Limbo
