import Verif.Model.LinAlg
import Verif.Spec.LinAlg
import Mathlib.Tactic.Linarith
import Mathlib.Tactic.Ring
import Mathlib.Tactic.FieldSimp
import Mathlib.Algebra.Order.BigOperators.Ring.Finset

namespace Limbo

open Finset

/-! ## substitution -/

theorem fsub_eq (L : Nat → Nat → ℝ) (b : Nat → ℝ) (i : Nat) :
    fsub L b i = (b i - ∑ j ∈ range i, L i j * fsub L b j) / L i i := by
  rw [fsub, Finset.sum_range]

theorem fsub_spec (L : Nat → Nat → ℝ) (b : Nat → ℝ) (i : Nat) (h : L i i ≠ 0) :
    ∑ j ∈ range (i + 1), L i j * fsub L b j = b i := by
  rw [sum_range_succ, fsub_eq L b i]
  field_simp
  ring

theorem bsub_eq (L : Nat → Nat → ℝ) (n : Nat) (c : Nat → ℝ) (i : Nat) :
    bsub L n c i = (c i - ∑ j ∈ Ico (i + 1) n, L j i * bsub L n c j) / L i i := by
  rw [bsub, Finset.sum_Ico_eq_sum_range, Finset.sum_range]

theorem bsub_spec (L : Nat → Nat → ℝ) (n : Nat) (c : Nat → ℝ) (i : Nat) (hi : i < n) (h : L i i ≠ 0) :
    ∑ j ∈ Ico i n, L j i * bsub L n c j = c i := by
  rw [Finset.sum_eq_sum_Ico_succ_bot hi, bsub_eq L n c i]
  field_simp
  ring

/-- substitution reads only the entries it should -/
theorem fsub_congr (L L' : Nat → Nat → ℝ) (b b' : Nat → ℝ) (n : Nat) (hL : ∀ i < n, ∀ j ≤ i, L i j = L' i j) (hb : ∀ i < n, b i = b' i) :
    ∀ i < n, fsub L b i = fsub L' b' i := by
  intro i
  induction i using Nat.strongRecOn with
  | _ i ih =>
    intro hi
    rw [fsub_eq, fsub_eq, hb i hi, hL i hi i (Nat.le_refl _)]
    congr 2
    apply sum_congr rfl
    intro j hj
    rw [mem_range] at hj
    rw [hL i hi j (by omega), ih j hj (by omega)]

theorem bsub_congr (L L' : Nat → Nat → ℝ) (n : Nat) (c c' : Nat → ℝ) (hL : ∀ i < n, ∀ j ≤ i, L i j = L' i j) (hc : ∀ i < n, c i = c' i) :
    ∀ i < n, bsub L n c i = bsub L' n c' i := by
  have key : ∀ m i, n - i ≤ m → i < n → bsub L n c i = bsub L' n c' i := by
    intro m
    induction m with
    | zero => intro i h1 h2; omega
    | succ m ih =>
      intro i h1 hi
      rw [bsub_eq, bsub_eq, hc i hi, hL i hi i (Nat.le_refl _)]
      congr 2
      apply sum_congr rfl
      intro j hj
      rw [mem_Ico] at hj
      rw [hL j hj.2 i (by omega), ih j (by omega) hj.2]
  intro i hi
  exact key _ i (Nat.le_refl _) hi

section
variable {n : Nat} {L L' K : Nat → Nat → ℝ}

/-- `L z` as a full sum -/
theorem lower_sum (hl : ∀ i < n, ∀ j < n, i < j → L i j = 0) (i : Nat) (hi : i < n) (z : Nat → ℝ) :
    ∑ j ∈ range n, L i j * z j = ∑ j ∈ range (i + 1), L i j * z j := by
  symm
  apply sum_subset (range_subset_range.2 (by omega))
  intro j hj hj'
  simp only [mem_range] at hj hj'
  rw [hl i hi j hj (by omega), zero_mul]

theorem upper_sum (hl : ∀ i < n, ∀ j < n, i < j → L i j = 0) (i : Nat) (hi : i < n) (z : Nat → ℝ) :
    ∑ j ∈ range n, L j i * z j = ∑ j ∈ Ico i n, L j i * z j := by
  symm
  apply sum_subset
  · intro j hj; simp only [mem_Ico] at hj; simp; omega
  · intro j hj hj'
    simp only [mem_range, mem_Ico] at hj hj'
    rw [hl j hj i hi (by omega), zero_mul]

theorem IsChol.fsub_solves (h : IsChol n L K) (b : Nat → ℝ) : ∀ i < n, ∑ j ∈ range n, L i j * fsub L b j = b i := by
  intro i hi
  rw [lower_sum h.lower i hi, fsub_spec L b i (h.diag i hi).ne']

theorem IsChol.bsub_solves (h : IsChol n L K) (c : Nat → ℝ) : ∀ i < n, ∑ j ∈ range n, L j i * bsub L n c j = c i := by
  intro i hi
  rw [upper_sum h.lower i hi, bsub_spec L n c i hi (h.diag i hi).ne']

/-- `K x = L (Lᵀ x)` -/
theorem IsChol.mulVec (h : IsChol n L K) (x : Nat → ℝ) (i : Nat) (hi : i < n) :
    ∑ j ∈ range n, K i j * x j = ∑ k ∈ range n, L i k * ∑ j ∈ range n, L j k * x j := by
  simp_rw [mul_sum]
  rw [sum_comm]
  apply sum_congr rfl
  intro j hj
  rw [mem_range] at hj
  rw [← h.prod i hi j hj, sum_mul]
  apply sum_congr rfl
  intro k _
  ring

/-- two triangular solves solve the system -/
theorem IsChol.solve (h : IsChol n L K) (b : Nat → ℝ) : Solves n K (bsub L n (fsub L b)) b := by
  intro i hi
  rw [h.mulVec _ i hi, ← h.fsub_solves b i hi]
  apply sum_congr rfl
  intro k hk
  rw [mem_range] at hk
  rw [h.bsub_solves _ k hk]

/-- quadratic form -/
theorem IsChol.quad (h : IsChol n L K) (x y : Nat → ℝ) :
    ∑ i ∈ range n, ∑ j ∈ range n, x i * K i j * y j = ∑ k ∈ range n, (∑ i ∈ range n, L i k * x i) * ∑ j ∈ range n, L j k * y j := by
  have : ∀ i ∈ range n, ∑ j ∈ range n, x i * K i j * y j = ∑ k ∈ range n, x i * (L i k * ∑ j ∈ range n, L j k * y j) := by
    intro i hi
    rw [← mul_sum, ← h.mulVec y i (mem_range.1 hi), mul_sum]
    exact sum_congr rfl fun j _ => by ring
  rw [sum_congr rfl this, sum_comm]
  apply sum_congr rfl
  intro k _
  rw [sum_mul]
  exact sum_congr rfl fun i _ => by ring

theorem IsChol.symm (h : IsChol n L K) : ∀ i < n, ∀ j < n, K i j = K j i := by
  intro i hi j hj
  rw [← h.prod i hi j hj, ← h.prod j hj i hi]
  exact sum_congr rfl fun k _ => mul_comm _ _

/-- `Lᵀ x = 0` implies `x = 0` -/
theorem IsChol.upper_inj (h : IsChol n L K) (x : Nat → ℝ) (hx : ∀ k < n, ∑ j ∈ range n, L j k * x j = 0) : ∀ i < n, x i = 0 := by
  have key : ∀ m i, n - i ≤ m → i < n → x i = 0 := by
    intro m
    induction m with
    | zero => intro i h1 h2; omega
    | succ m ih =>
      intro i h1 hi
      have := hx i hi
      rw [upper_sum h.lower i hi, Finset.sum_eq_sum_Ico_succ_bot hi,
        sum_eq_zero (s := Ico (i + 1) n), add_zero] at this
      · rcases mul_eq_zero.1 this with h' | h'
        · exact absurd h' (h.diag i hi).ne'
        · exact h'
      · intro j hj
        rw [mem_Ico] at hj
        rw [ih j (by omega) hj.2, mul_zero]
  intro i hi
  exact key _ i (Nat.le_refl _) hi

theorem IsChol.pd (h : IsChol n L K) : PD n K := by
  refine ⟨h.symm, ?_⟩
  rintro x ⟨i, hi, hx⟩
  rw [h.quad x x]
  have hnn : ∀ k ∈ range n, 0 ≤ (∑ i ∈ range n, L i k * x i) * ∑ j ∈ range n, L j k * x j := fun k _ => mul_self_nonneg _
  rcases (sum_nonneg hnn).lt_or_eq with h1 | h1
  · exact h1
  · exfalso
    have := (sum_eq_zero_iff_of_nonneg hnn).1 h1.symm
    exact hx (h.upper_inj x (fun k hk => mul_self_eq_zero.1 (this k (mem_range.2 hk))) i hi)

/-- entries of a Cholesky factor -/
theorem IsChol.entry (h : IsChol n L K) (i j : Nat) (hi : i < n) (hj : j < i) :
    L i j = (K i j - ∑ k ∈ range j, L i k * L j k) / L j j := by
  have hjn : j < n := by omega
  have := h.prod i hi j hjn
  have e : ∑ k ∈ range n, L i k * L j k = ∑ k ∈ range (j + 1), L j k * L i k := by
    rw [← lower_sum h.lower j hjn (fun k => L i k)]
    exact sum_congr rfl fun k _ => mul_comm _ _
  rw [e, sum_range_succ] at this
  rw [eq_div_iff (h.diag j hjn).ne']
  have e2 : ∑ k ∈ range j, L i k * L j k = ∑ k ∈ range j, L j k * L i k := sum_congr rfl fun k _ => mul_comm _ _
  rw [e2]; linarith

theorem IsChol.entry_diag (h : IsChol n L K) (i : Nat) (hi : i < n) :
    L i i = √(K i i - ∑ k ∈ range i, L i k * L i k) := by
  have := h.prod i hi i hi
  rw [lower_sum h.lower i hi (fun k => L i k), sum_range_succ] at this
  have e : K i i - ∑ k ∈ range i, L i k * L i k = L i i * L i i := by linarith
  rw [e, Real.sqrt_mul_self (h.diag i hi).le]

/-- The Cholesky factor is unique (and depends only on the block). -/
theorem IsChol.unique {K' : Nat → Nat → ℝ} (h : IsChol n L K) (h' : IsChol n L' K') (hK : ∀ i < n, ∀ j ≤ i, K i j = K' i j) :
    ∀ i < n, ∀ j < n, L i j = L' i j := by
  have key : ∀ i, i < n → ∀ j, j ≤ i → L i j = L' i j := by
    intro i
    induction i using Nat.strongRecOn with
    | _ i ihi =>
      intro hi j
      induction j using Nat.strongRecOn with
      | _ j ihj =>
        intro hj
        rcases Nat.lt_or_ge j i with hlt | hge
        · rw [h.entry i j hi hlt, h'.entry i j hi hlt, hK i hi j hj, ihi j hlt (by omega) j (Nat.le_refl _)]
          congr 2
          apply sum_congr rfl
          intro k hk
          rw [mem_range] at hk
          rw [ihj k hk (by omega), ihi j hlt (by omega) k (by omega)]
        · obtain rfl : j = i := by omega
          rw [h.entry_diag j hi, h'.entry_diag j hi, hK j hi j (Nat.le_refl _)]
          congr 2
          apply sum_congr rfl
          intro k hk
          rw [mem_range] at hk
          rw [ihj k hk (by omega)]
  intro i hi j hj
  rcases Nat.lt_or_ge i j with hlt | hge
  · rw [h.lower i hi j hj hlt, h'.lower i hi j hj hlt]
  · exact key i hi j hge

theorem PD.of_le {m : Nat} (h : PD n K) (hm : m ≤ n) : PD m K := by
  refine ⟨fun i hi j hj => h.symm i (by omega) j (by omega), ?_⟩
  rintro x ⟨i, hi, hx⟩
  have := h.pos (fun i => if i < m then x i else 0) ⟨i, by omega, by simp [hi, hx]⟩
  have e : ∑ i ∈ range n, ∑ j ∈ range n, (if i < m then x i else 0) * K i j * (if j < m then x j else 0)
      = ∑ i ∈ range m, ∑ j ∈ range m, x i * K i j * x j := by
    have e1 : ∀ (f : Nat → ℝ), (∀ i, m ≤ i → f i = 0) → ∑ i ∈ range n, f i = ∑ i ∈ range m, f i := by
      intro f hf
      symm
      apply sum_subset (range_subset_range.2 hm)
      intro j _ hj
      simp only [mem_range, not_lt] at hj
      exact hf j hj
    rw [e1 _ (fun i hi => sum_eq_zero fun j _ => by simp [show ¬ i < m by omega])]
    apply sum_congr rfl
    intro i hi
    rw [e1 _ (fun j hj => by simp [show ¬ j < m by omega])]
    apply sum_congr rfl
    intro j hj
    rw [mem_range] at hi hj
    simp [hi, hj]
  rw [e] at this
  exact this

theorem PD.congr {K' : Nat → Nat → ℝ} (h : PD n K) (hK : ∀ i < n, ∀ j < n, K i j = K' i j) : PD n K' := by
  refine ⟨fun i hi j hj => by rw [← hK i hi j hj, ← hK j hj i hi]; exact h.symm i hi j hj, fun x hx => ?_⟩
  have := h.pos x hx
  refine lt_of_lt_of_eq this ?_
  apply sum_congr rfl
  intro i hi
  apply sum_congr rfl
  intro j hj
  rw [hK i (mem_range.1 hi) j (mem_range.1 hj)]

theorem IsChol.congr {K' : Nat → Nat → ℝ} (h : IsChol n L K) (hL : ∀ i < n, ∀ j < n, L i j = L' i j) (hK : ∀ i < n, ∀ j < n, K i j = K' i j) :
    IsChol n L' K' := by
  refine ⟨fun i hi => by rw [← hL i hi i hi]; exact h.diag i hi, fun i hi j hj hij => by rw [← hL i hi j hj]; exact h.lower i hi j hj hij, ?_⟩
  intro i hi j hj
  rw [← hK i hi j hj, ← h.prod i hi j hj]
  apply sum_congr rfl
  intro k hk
  rw [hL i hi k (mem_range.1 hk), hL j hj k (mem_range.1 hk)]

/-- The pivot of the incremental update is positive. -/
theorem IsChol.pivot_pos (h : IsChol n L K) (hpd : PD (n + 1) K) :
    0 < K n n - ∑ k ∈ range n, fsub L (fun j => K n j) k * fsub L (fun j => K n j) k := by
  set z := fsub L (fun j => K n j) with hz
  have hzs : ∀ i < n, ∑ j ∈ range n, L i j * z j = K n i := h.fsub_solves _
  let y := bsub L n z
  have hy : ∀ k < n, ∑ j ∈ range n, L j k * y j = z k := h.bsub_solves _
  have hx := hpd.pos (fun i => if i = n then 1 else - y i) ⟨n, by omega, by simp⟩
  rw [sum_range_succ] at hx
  have e1 : ∀ i ∈ range n, ∑ j ∈ range (n + 1), (if i = n then (1 : ℝ) else - y i) * K i j * (if j = n then 1 else - y j)
      = ∑ j ∈ range n, y i * K i j * y j - y i * K i n := by
    intro i hi
    have hi' : i ≠ n := by rw [mem_range] at hi; omega
    rw [sum_range_succ]
    simp only [if_neg hi', if_true]
    rw [sum_congr rfl (g := fun j => y i * K i j * y j)]
    · ring
    · intro j hj
      have hj' : j ≠ n := by rw [mem_range] at hj; omega
      simp only [if_neg hj']; ring
  rw [sum_congr rfl e1, sum_sub_distrib, h.quad y y, sum_range_succ] at hx
  simp only [if_true, one_mul, mul_one] at hx
  have e2 : ∑ k ∈ range n, (∑ i ∈ range n, L i k * y i) * ∑ j ∈ range n, L j k * y j = ∑ k ∈ range n, z k * z k := by
    apply sum_congr rfl
    intro k hk
    rw [hy k (mem_range.1 hk)]
  have e3 : ∑ i ∈ range n, y i * K i n = ∑ k ∈ range n, z k * z k := by
    have : ∀ i ∈ range n, y i * K i n = ∑ k ∈ range n, (L i k * y i) * z k := by
      intro i hi
      rw [mem_range] at hi
      rw [hpd.symm i (by omega) n (by omega), ← hzs i hi, mul_sum]
      exact sum_congr rfl fun k _ => by ring
    rw [sum_congr rfl this, sum_comm]
    apply sum_congr rfl
    intro k hk
    rw [← sum_mul, hy k (mem_range.1 hk)]
  have e4 : ∑ j ∈ range n, K n j * (if j = n then (1 : ℝ) else - y j) = - ∑ k ∈ range n, z k * z k := by
    rw [← e3, ← sum_neg_distrib]
    apply sum_congr rfl
    intro j hj
    rw [mem_range] at hj
    rw [if_neg (by omega), hpd.symm n (by omega) j (by omega)]; ring
  rw [e2, e3, e4] at hx
  linarith

/-- Adding a row computed by forward substitution extends a Cholesky factor. -/
theorem IsChol.extend (h : IsChol n L K) (hpd : PD (n + 1) K) (L' : Nat → Nat → ℝ) (hold : ∀ i < n, ∀ j < n, L' i j = L i j)
    (hcol : ∀ i < n, L' i n = 0) (hrow : ∀ j < n, L' n j = fsub L (fun j => K n j) j)
    (hdiag : L' n n = √(K n n - ∑ k ∈ range n, fsub L (fun j => K n j) k * fsub L (fun j => K n j) k)) : IsChol (n + 1) L' K := by
  have hp := h.pivot_pos hpd
  refine ⟨?_, ?_, ?_⟩
  · intro i hi
    rcases Nat.lt_or_ge i n with hlt | hge
    · rw [hold i hlt i hlt]; exact h.diag i hlt
    · obtain rfl : i = n := by omega
      rw [hdiag]; exact Real.sqrt_pos.2 hp
  · intro i hi j hj hij
    rcases Nat.lt_or_ge j n with hlt | hge
    · rw [hold i (by omega) j hlt]; exact h.lower i (by omega) j hlt hij
    · obtain rfl : j = n := by omega
      exact hcol i hij
  · have hmain : ∀ i < n + 1, ∀ j < n + 1, j ≤ i → ∑ k ∈ range (n + 1), L' i k * L' j k = K i j := by
      intro i hi j hj hji
      rw [sum_range_succ]
      rcases Nat.lt_or_ge i n with hlt | hge
      · have hjn : j < n := by omega
        rw [hcol i hlt, zero_mul, add_zero, ← h.prod i hlt j hjn]
        apply sum_congr rfl
        intro k hk
        rw [mem_range] at hk
        rw [hold i hlt k hk, hold j hjn k hk]
      · obtain rfl : i = n := by omega
        rcases Nat.lt_or_ge j i with hlt | hge'
        · rw [hcol j hlt, mul_zero, add_zero, ← h.fsub_solves (fun j => K i j) j hlt]
          apply sum_congr rfl
          intro k hk
          rw [mem_range] at hk
          rw [hrow k hk, hold j hlt k hk]; ring
        · obtain rfl : j = i := by omega
          rw [hdiag, Real.mul_self_sqrt hp.le]
          rw [sum_congr rfl (g := fun k => fsub L (fun l => K j l) k * fsub L (fun l => K j l) k)]
          · ring
          · intro k hk
            rw [mem_range] at hk
            rw [hrow k hk]
    intro i hi j hj
    rcases Nat.le_total j i with hle | hle
    · exact hmain i hi j hj hle
    · rw [hpd.symm i hi j hj, ← hmain j hj i hi hle]
      exact sum_congr rfl fun k _ => mul_comm _ _

end

/-- Every positive definite matrix has a Cholesky factor: the contract of LLT can be met. -/
theorem exists_chol (K : Nat → Nat → ℝ) : ∀ n, PD n K → ∃ L, IsChol n L K := by
  intro n
  induction n with
  | zero => intro _; exact ⟨fun _ _ => 0, by intro i hi; omega, by intro i hi; omega, by intro i hi; omega⟩
  | succ n ih =>
    intro h
    obtain ⟨L, hL⟩ := ih (h.of_le (by omega))
    refine ⟨fun i j => if i < n then (if j < n then L i j else 0) else if j < n then fsub L (fun j => K n j) j
      else √(K n n - ∑ k ∈ range n, fsub L (fun j => K n j) k * fsub L (fun j => K n j) k), hL.extend h _ ?_ ?_ ?_ ?_⟩
    · intro i hi j hj; simp [hi, hj]
    · intro i hi; simp [hi]
    · intro j hj; simp [hj]
    · simp

theorem llt_contract_satisfiable : ∃ llt, LltContract llt := by
  classical
  refine ⟨fun n K => if h : PD n K then (exists_chol K n h).choose else fun _ _ => 0, ?_⟩
  intro n K h
  simp only [h, dif_pos]
  exact (exists_chol K n h).choose_spec

theorem Solves.unique {n : Nat} {K : Nat → Nat → ℝ} (h : PD n K) {x y b : Nat → ℝ} (hx : Solves n K x b) (hy : Solves n K y b) :
    ∀ i < n, x i = y i := by
  by_contra hc
  push Not at hc
  obtain ⟨i, hi, hne⟩ := hc
  have := h.pos (fun i => x i - y i) ⟨i, hi, sub_ne_zero.2 hne⟩
  rw [sum_eq_zero] at this
  · exact lt_irrefl _ this
  · intro i hi
    rw [mem_range] at hi
    have e : ∑ j ∈ range n, (x i - y i) * K i j * (x j - y j) = (x i - y i) * (∑ j ∈ range n, K i j * x j - ∑ j ∈ range n, K i j * y j) := by
      rw [← sum_sub_distrib, mul_sum]
      exact sum_congr rfl fun j _ => by ring
    rw [e, hx i hi, hy i hi, sub_self, mul_zero]

end Limbo
