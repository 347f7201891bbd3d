import Verif.Lemmas.GpGrad

/-! Leaving one datum out: the classical identities for the leave-one-out mean and variance. -/

set_option linter.unusedSectionVars false

namespace Limbo

open Finset Matrix

/-- where element `j` of `xs.eraseIdx i` sits in `xs` -/
def skip (i j : Nat) : Nat := if j < i then j else j + 1

theorem skip_equiv {n m : Nat} (h : n = m + 1) (i : Fin n) : ∃ e : Option (Fin m) ≃ Fin n, e none = i ∧ ∀ j : Fin m, ((e (some j) : Fin n) : Nat) = skip i j := by
  subst h
  have hlt : ∀ j : Fin m, skip i j < m + 1 := fun j => by unfold skip; split <;> omega
  let f : Option (Fin m) → Fin (m + 1) := fun o => o.elim i fun j => ⟨skip i j, hlt j⟩
  have hinj : Function.Injective f := by
    intro a b hab
    rcases a with _ | a <;> rcases b with _ | b
    · rfl
    · have := congrArg Fin.val hab
      simp only [f, Option.elim, skip] at this
      split at this <;> omega
    · have := congrArg Fin.val hab
      simp only [f, Option.elim, skip] at this
      split at this <;> omega
    · have := congrArg Fin.val hab
      simp only [f, Option.elim, skip] at this
      congr 1
      apply Fin.ext
      split at this <;> split at this <;> omega
  have hbij : Function.Bijective f := by
    rw [Fintype.bijective_iff_injective_and_card]
    exact ⟨hinj, by simp⟩
  exact ⟨Equiv.ofBijective f hbij, rfl, fun j => rfl⟩

theorem erase_len {α : Type} (xs : List α) (i : Fin xs.length) : xs.length = (xs.eraseIdx i).length + 1 := by
  have := i.2
  rw [List.length_eraseIdx]
  split <;> omega

theorem erase_get {α : Type} (xs : List α) (i : Nat) (j : Nat) (d : α) : (xs.eraseIdx i).getD j d = xs.getD (skip i j) d := by
  unfold skip
  rw [List.getD_eq_getElem?_getD, List.getD_eq_getElem?_getD, List.getElem?_eraseIdx]
  split <;> rfl

/-- Block elimination: row and column `i` of the inverse in terms of the matrix without row and column `i`. -/
theorem loo_matrix {ι κ : Type} [Fintype ι] [DecidableEq ι] [Fintype κ] [DecidableEq κ] (e : Option κ ≃ ι) (M : Matrix ι ι ℝ) (hs : Mᵀ = M)
    (hM : IsUnit M.det) (M' : Matrix κ κ ℝ) (hM' : IsUnit M'.det) (hsub : ∀ a b, M' a b = M (e (some a)) (e (some b))) (kv : κ → ℝ)
    (hkv : ∀ a, kv a = M (e (some a)) (e none)) (r : ι → ℝ) :
    M⁻¹ (e none) (e none) * (M (e none) (e none) - kv ⬝ᵥ (M'⁻¹ *ᵥ kv)) = 1 ∧
    (M⁻¹ *ᵥ r) (e none) * (M (e none) (e none) - kv ⬝ᵥ (M'⁻¹ *ᵥ kv)) = r (e none) - kv ⬝ᵥ (M'⁻¹ *ᵥ fun a => r (e (some a))) := by
  set z := M'⁻¹ *ᵥ kv with hz
  set s2 := M (e none) (e none) - kv ⬝ᵥ z with hs2
  have sumE : ∀ g : ι → ℝ, ∑ a, g a = g (e none) + ∑ j, g (e (some j)) := by
    intro g
    rw [← e.sum_comp, Fintype.sum_option]
  have hMz : M' *ᵥ z = kv := by rw [hz, Matrix.mulVec_mulVec, Matrix.mul_nonsing_inv _ hM', Matrix.one_mulVec]
  have hsym : ∀ a b, M a b = M b a := fun a b => congrFun (congrFun hs b) a
  let w : ι → ℝ := fun a => (e.symm a).elim 1 fun j => -z j
  have w0 : w (e none) = 1 := by simp [w]
  have w1 : ∀ j, w (e (some j)) = -z j := by intro j; simp [w]
  have hMw : M *ᵥ w = Pi.single (e none) s2 := by
    funext a
    have : (M *ᵥ w) a = ∑ b, M a b * w b := rfl
    rw [this, sumE, w0]
    simp only [w1]
    obtain ⟨o, rfl⟩ := e.surjective a
    cases o with
    | none =>
      rw [Pi.single_eq_same, hs2, mul_one, sub_eq_add_neg]
      congr 1
      simp only [dotProduct, mul_neg, sum_neg_distrib, neg_inj]
      exact sum_congr rfl fun j _ => by rw [hkv, hsym]
    | some l =>
      rw [Pi.single_eq_of_ne (by intro h; have := e.injective h; simp at this), mul_one, ← hkv]
      have : (M' *ᵥ z) l = ∑ j, M (e (some l)) (e (some j)) * z j := sum_congr rfl fun j _ => congrArg (· * z j) (hsub l j)
      rw [hMz] at this
      simp only [mul_neg, sum_neg_distrib]
      rw [← this]; ring
  have hw : w = M⁻¹ *ᵥ Pi.single (e none) s2 := by
    rw [← hMw, Matrix.mulVec_mulVec, Matrix.nonsing_inv_mul _ hM, Matrix.one_mulVec]
  have hcol : ∀ a, w a = M⁻¹ a (e none) * s2 := by
    intro a
    rw [hw, Matrix.mulVec_single]
    simp [mul_comm]
  have hsi : ∀ a b, M⁻¹ a b = M⁻¹ b a := by
    intro a b
    have := congrFun (congrFun (Matrix.transpose_nonsing_inv M) b) a
    rw [hs] at this
    exact this
  have hs' : M'ᵀ = M' := by ext a b; rw [Matrix.transpose_apply, hsub, hsub, hsym]
  refine ⟨by rw [← hcol, w0], ?_⟩
  have e1 : (M⁻¹ *ᵥ r) (e none) * s2 = ∑ a, w a * r a := by
    have : (M⁻¹ *ᵥ r) (e none) = ∑ b, M⁻¹ (e none) b * r b := rfl
    rw [this, sum_mul]
    exact sum_congr rfl fun a _ => by rw [hcol, hsi a]; ring
  rw [e1, sumE, w0, one_mul, sub_eq_add_neg]
  congr 1
  simp only [w1, neg_mul, sum_neg_distrib, neg_inj]
  have hsi' : (M'⁻¹)ᵀ = M'⁻¹ := by rw [Matrix.transpose_nonsing_inv, hs']
  have : kv ⬝ᵥ (M'⁻¹ *ᵥ fun a => r (e (some a))) = z ⬝ᵥ fun a => r (e (some a)) := by
    rw [Matrix.dotProduct_mulVec, ← Matrix.mulVec_transpose, hsi']
  rw [this]
  rfl

namespace Gp

variable {E : GpEnv} {A : GpAbs} {s u : GpState E} {din dout : Nat}

theorem looOf_eq {kf : BaseK E.K} (hk : KOK kf din) {xs ys : List (List ℝ)} (hx : ∀ x ∈ xs, x.length = din) (m : List ℝ → Nat → ℝ) (d : Nat) :
    looOf (toM xs.length (gramN kf xs)) d (resid m xs ys)
      = ∑ c ∈ range d, logLoo (E.K.kernel kf.inner) m (kf.noise + 1e-8) xs ys c := by
  unfold looOf logLoo
  refine sum_congr rfl fun c _ => sum_congr rfl fun i _ => ?_
  have hlen := erase_len xs i
  obtain ⟨e, he0, he1⟩ := skip_equiv hlen i
  have hx' : ∀ x ∈ xs.eraseIdx i, x.length = din := fun x hx1 => hx x (List.mem_of_mem_eraseIdx hx1)
  have hpd := gram_pd hk hx
  have hpd' := gram_pd hk hx'
  have hget : ∀ j : Fin (xs.eraseIdx i).length, (xs.eraseIdx i)[j] = xs[e (some j)] := by
    intro j
    have h1 := erase_get xs i j []
    rw [← he1 j, List.getD_eq_getElem _ _ j.2, List.getD_eq_getElem _ _ (e (some j)).2] at h1
    exact h1
  have key := loo_matrix e (toM xs.length (gramN kf xs)) (by ext a b; exact hpd.symm b b.2 a a.2) hpd.isUnit_det
    (gramM (E.K.kernel kf.inner) (kf.noise + 1e-8) (xs.eraseIdx i)) (by rw [gramM_eq]; exact hpd'.isUnit_det)
    (by
      intro a b
      rw [← gramM_eq]
      simp only [gramM, Matrix.of_apply, hget, EmbeddingLike.apply_eq_iff_eq, Option.some.injEq])
    (kvec (E.K.kernel kf.inner) (xs.eraseIdx i) xs[i])
    (by
      intro a
      rw [← gramM_eq]
      have hne : e (some a) ≠ i := by intro h; cases e.injective (h.trans he0.symm)
      simp only [gramM, kvec, Matrix.of_apply, hget, he0]
      rw [if_neg hne, add_zero])
    (resid m xs ys c)
  rw [he0] at key
  have hMii : toM xs.length (gramN kf xs) i i = E.K.kernel kf.inner xs[i] xs[i] + (kf.noise + 1e-8) := by
    rw [← gramM_eq]; simp [gramM]
  have hs2 : postVar (E.K.kernel kf.inner) (kf.noise + 1e-8) (xs.eraseIdx i) xs[i] + (kf.noise + 1e-8)
      = toM xs.length (gramN kf xs) i i - kvec (E.K.kernel kf.inner) (xs.eraseIdx i) xs[i] ⬝ᵥ
        ((gramM (E.K.kernel kf.inner) (kf.noise + 1e-8) (xs.eraseIdx i))⁻¹ *ᵥ kvec (E.K.kernel kf.inner) (xs.eraseIdx i) xs[i]) := by
    rw [hMii]; unfold postVar; ring
  rw [← hs2] at key
  have hres : (fun a : Fin (xs.eraseIdx i).length => resid m xs ys c (e (some a))) = resid m (xs.eraseIdx i) (ys.eraseIdx i) c := by
    funext a
    unfold resid
    rw [erase_get, hget a, ← he1 a]
  have hmean : resid m xs ys c i - kvec (E.K.kernel kf.inner) (xs.eraseIdx i) xs[i] ⬝ᵥ
      ((gramM (E.K.kernel kf.inner) (kf.noise + 1e-8) (xs.eraseIdx i))⁻¹ *ᵥ fun a => resid m xs ys c (e (some a)))
      = at' (ys.getD i []) c - postMean (E.K.kernel kf.inner) m (kf.noise + 1e-8) (xs.eraseIdx i) (ys.eraseIdx i) xs[i] c := by
    rw [hres]
    unfold postMean
    rw [show resid m xs ys c i = at' (ys.getD i []) c - m xs[i] c from rfl]
    ring
  rw [hmean] at key
  obtain ⟨k1, k2⟩ := key
  generalize postVar (E.K.kernel kf.inner) (kf.noise + 1e-8) (xs.eraseIdx i) xs[i] + (kf.noise + 1e-8) = v at k1 k2 ⊢
  have hinv : ((toM xs.length (gramN kf xs))⁻¹ i i)⁻¹ = v := inv_eq_of_mul_eq_one_right k1
  unfold gaussLogPdf
  rw [hinv, ← k2]
  have hv : v ≠ 0 := right_ne_zero_of_mul_eq_one k1
  field_simp
  ring

end Gp

end Limbo
