import Verif.Lemmas.Kernel
import Verif.Spec.Mean

namespace Limbo

open Finset

/-- what a mean class guarantees on the states it can reach -/
structure MeanOK (M : MeanImpl) : Prop where
  size_set : ∀ d s p, MReach M d s → M.hSize (M.setH s p) = M.hSize s
  len : ∀ d s, MReach M d s → (M.hParams s).length = M.hSize s
  get_set : ∀ d s p, MReach M d s → p.length = M.hSize s → M.hParams (M.setH s p) = p
  set_get : ∀ d s s' x mo c, MReach M d s → MReach M d s' → c < d → M.op (M.setH s' (M.hParams s)) x mo c = M.op s x mo c
  deriv : ∀ d s p x mo q, MReach M d s → p.length = M.hSize s → q < M.hSize s →
    ∃ g, M.grad (M.setH s p) x mo = some g ∧
      ∀ c < d, HasDerivAt (fun t => M.op (M.setH s (p.set q t)) x mo c) (g c q) (at' p q)

theorem MeanOK.size_eq {M : MeanImpl} (hM : MeanOK M) {d : Nat} {s : M.St} (h : MReach M d s) : M.hSize s = M.hSize (M.new d) := by
  induction h with
  | new => rfl
  | set p hr _ ih => rw [hM.size_set d _ p hr, ih]

theorem nullMean_ok : MeanOK nullMean where
  size_set _ _ _ _ := rfl
  len _ _ _ := rfl
  get_set _ _ p _ hp := (List.length_eq_zero_iff.1 hp).symm
  set_get _ _ _ _ _ _ _ _ _ := rfl
  deriv _ _ _ _ _ q _ _ hq := absurd hq (Nat.not_lt_zero q)

theorem dataMean_ok : MeanOK dataMean where
  size_set _ _ _ _ := rfl
  len _ _ _ := rfl
  get_set _ _ p _ hp := (List.length_eq_zero_iff.1 hp).symm
  set_get _ _ _ _ _ _ _ _ _ := rfl
  deriv _ _ _ _ _ q _ _ hq := absurd hq (Nat.not_lt_zero q)

theorem constMean_ok (k : ℝ) : MeanOK (constMean k) where
  size_set _ _ _ _ := rfl
  len _ _ _ := rfl
  get_set _ _ p _ hp := by
    obtain ⟨a, rfl⟩ := List.length_eq_one_iff.1 hp
    rfl
  set_get _ _ _ _ _ _ _ _ _ := rfl
  deriv _ s p x mo q _ hp hq := by
    refine ⟨fun _ _ => 1, rfl, fun c _ => ?_⟩
    have hq0 : q = 0 := by
      have : q < 1 := hq
      omega
    subst hq0
    have hp' : p.length = 1 := hp
    have := at'_deriv p 0 0 (by omega)
    rw [if_pos rfl] at this
    exact this

/-! ### FunctionARD -/

theorem fard_reach {M : MeanImpl} (hM : MeanOK M) {d : Nat} {s : (functionArd M).St} (h : MReach (functionArd M) d s) :
    FArdSt.d s = d ∧ MReach M d (FArdSt.inner s) ∧ (FArdSt.h s).length = d * (d + 1) ∧
      ∀ r < d, ∀ c < d + 1, FArdSt.tr s r c = at' (FArdSt.h s) (r * (d + 1) + c) := by
  have key : ∀ (s : FArdSt M) (p : List ℝ), s.d = d → MReach M d s.inner → FArdSt.hSize s ≤ p.length →
      (FArdSt.setH s p).d = d ∧ MReach M d (FArdSt.setH s p).inner ∧ (FArdSt.setH s p).h.length = d * (d + 1) ∧
      ∀ r < d, ∀ c < d + 1, (FArdSt.setH s p).tr r c = at' (FArdSt.setH s p).h (r * (d + 1) + c) := by
    intro s p hd hr hp
    have hlen : d * (d + 1) + M.hSize s.inner ≤ p.length := by rw [← hd]; exact hp
    refine ⟨hd, ?_, ?_, ?_⟩
    · simp only [FArdSt.setH]
      split
      · refine .set _ hr ?_
        simp only [List.length_drop]; omega
      · exact hr
    · simp only [FArdSt.setH, hd, List.length_take]; omega
    · intro r hr c hc
      simp only [FArdSt.setH, hd]
      rw [if_pos ⟨hr, hc⟩, at'_take, if_pos]
      calc r * (d + 1) + c < r * (d + 1) + (d + 1) := by omega
        _ = (r + 1) * (d + 1) := by ring
        _ ≤ d * (d + 1) := Nat.mul_le_mul_right _ hr
  induction h with
  | new =>
    show (FArdSt.mk' d : FArdSt M).d = d ∧ _
    apply key
    · rfl
    · exact .new
    · have hl := hM.len d (M.new d) .new
      simp only [FArdSt.hSize, List.length_append, List.length_map, List.length_range]
      split
      · omega
      · simp only [List.length_nil]; omega
  | set p _ hp ih => exact key _ p ih.1 ih.2.1 hp

theorem fard_drop {p : List ℝ} {n m : Nat} (hp : p.length = n + m) : p.drop (p.length - m) = p.drop n := by
  congr 1; omega

theorem at'_append_left (a b : List ℝ) (i : Nat) (h : i < a.length) : at' (a ++ b) i = at' a i := by
  unfold at'
  simp [List.getElem?_append_left h]

theorem fard_pos {d r c : Nat} (hr : r < d) (hc : c < d + 1) : r * (d + 1) + c < d * (d + 1) := by
  calc r * (d + 1) + c < r * (d + 1) + (d + 1) := by omega
    _ = (r + 1) * (d + 1) := by ring
    _ ≤ d * (d + 1) := Nat.mul_le_mul_right _ hr

theorem fard_ok {M : MeanImpl} (hM : MeanOK M) : MeanOK (functionArd M) where
  size_set d s p hr := by
    obtain ⟨hd, hri, -, -⟩ := fard_reach hM hr
    show FArdSt.hSize (FArdSt.setH s p) = FArdSt.hSize s
    simp only [FArdSt.hSize, FArdSt.setH]
    split
    · rw [hM.size_set d _ _ hri]
    · rfl
  len d s hr := by
    obtain ⟨hd, hri, hl, -⟩ := fard_reach hM hr
    show (FArdSt.hParams s).length = FArdSt.hSize s
    simp only [FArdSt.hParams, FArdSt.hSize, List.length_append, hl, hd]
    split
    · rw [hM.len d _ hri]
    · simp only [List.length_nil]; omega
  get_set d s p hr hp := by
    obtain ⟨hd, hri, hl, -⟩ := fard_reach hM hr
    have hp : p.length = FArdSt.hSize s := hp
    show FArdSt.hParams (FArdSt.setH s p) = p
    simp only [FArdSt.hSize] at hp
    simp only [FArdSt.hParams, FArdSt.setH]
    by_cases h0 : M.hSize s.inner > 0
    · simp only [if_pos h0]
      rw [hM.size_set d _ _ hri, if_pos h0, fard_drop hp, hM.get_set d _ _ hri]
      · exact List.take_append_drop _ _
      · rw [List.length_drop]; omega
    · simp only [if_neg h0]
      rw [List.append_nil, List.take_of_length_le (by omega)]
  set_get d s s' x mo c hr hr' hc := by
    obtain ⟨hd, hri, hl, htr⟩ := fard_reach hM hr
    obtain ⟨hd', hri', -, -⟩ := fard_reach hM hr'
    show FArdSt.op (FArdSt.setH s' (FArdSt.hParams s)) x mo c = FArdSt.op s x mo c
    have hsi : M.hSize (FArdSt.inner s') = M.hSize (FArdSt.inner s) := by rw [hM.size_eq hri, hM.size_eq hri']
    have hsz : (FArdSt.hParams s).length = d * (d + 1) + if M.hSize (FArdSt.inner s) > 0 then M.hSize (FArdSt.inner s) else 0 := by
      simp only [FArdSt.hParams, List.length_append, hl]
      split
      · rw [hM.len d _ hri]
      · rfl
    unfold FArdSt.op
    have hdd : (FArdSt.setH s' (FArdSt.hParams s)).d = d := hd'
    rw [hdd, hd]
    apply sum_congr rfl
    intro j hj
    rw [mem_range] at hj
    congr 1
    · simp only [FArdSt.setH, hd']
      rw [if_pos ⟨hc, hj⟩, htr c hc j hj]
      unfold FArdSt.hParams
      rw [at'_append_left _ _ _ (by rw [hl]; exact fard_pos hc hj)]
    · split
      · rename_i hjd
        simp only [FArdSt.setH, hsi]
        split
        · rename_i h0
          rw [if_pos h0] at hsz
          have : (FArdSt.hParams s).drop ((FArdSt.hParams s).length - M.hSize (FArdSt.inner s)) = M.hParams (FArdSt.inner s) := by
            rw [fard_drop hsz]
            unfold FArdSt.hParams
            rw [if_pos h0, List.drop_append_of_le_length (by rw [hl]), List.drop_of_length_le (by rw [hl]), List.nil_append]
          rw [this]
          exact hM.set_get d _ _ x mo j hri hri' hjd
        · rename_i h0
          have h1 := hM.set_get d _ _ x mo j hri hri' hjd
          have h2 := hM.set_get d _ _ x mo j hri' hri' hjd
          have e1 : M.hParams (FArdSt.inner s) = [] := List.length_eq_zero_iff.1 (by rw [hM.len d _ hri]; omega)
          have e2 : M.hParams (FArdSt.inner s') = [] := List.length_eq_zero_iff.1 (by rw [hM.len d _ hri']; omega)
          rw [e1] at h1; rw [e2] at h2
          rw [← h1, ← h2]
      · rfl
  deriv d s p x mo q hr hp hq := by
    obtain ⟨hd, hri, hl, htr⟩ := fard_reach hM hr
    have hp : p.length = FArdSt.hSize s := hp
    have hq : q < FArdSt.hSize s := hq
    simp only [FArdSt.hSize, hd] at hp hq
    -- the derivative of the inner mean
    have hin : ∃ dm : Nat → ℝ, (∀ j < d, HasDerivAt (fun t => M.op (FArdSt.setH s (p.set q t)).inner x mo j) (dm j) (at' p q)) ∧
        (q < d * (d + 1) → ∀ j < d, dm j = 0) ∧
        (M.hSize s.inner > 0 → ∃ g, M.grad (FArdSt.setH s p).inner x mo = some g ∧ (d * (d + 1) ≤ q → ∀ j < d, dm j = g j (q - d * (d + 1)))) := by
      by_cases h0 : M.hSize s.inner > 0
      · have hsel : ∀ t, (FArdSt.setH s (p.set q t)).inner = M.setH s.inner ((p.set q t).drop (d * (d + 1))) := by
          intro t
          simp only [FArdSt.setH, if_pos h0]
          rw [fard_drop (by rw [List.length_set]; exact hp)]
        have hsel0 : (FArdSt.setH s p).inner = M.setH s.inner (p.drop (d * (d + 1))) := by
          simp only [FArdSt.setH, if_pos h0]
          rw [fard_drop hp]
        have hlen : (p.drop (d * (d + 1))).length = M.hSize s.inner := by rw [List.length_drop]; omega
        by_cases hqd : q < d * (d + 1)
        · obtain ⟨g, hg, -⟩ := hM.deriv d s.inner (p.drop (d * (d + 1))) x mo 0 hri hlen h0
          refine ⟨fun _ => 0, fun j _ => ?_, fun _ _ _ => rfl, fun _ => ⟨g, by rw [hsel0]; exact hg, fun h => absurd h (by omega)⟩⟩
          simp only [hsel, List.drop_set, if_pos hqd]
          exact hasDerivAt_const _ _
        · obtain ⟨g, hg, hder⟩ := hM.deriv d s.inner (p.drop (d * (d + 1))) x mo (q - d * (d + 1)) hri hlen (by omega)
          refine ⟨fun j => g j (q - d * (d + 1)), fun j hj => ?_, fun h => absurd h hqd, fun _ => ⟨g, by rw [hsel0]; exact hg, fun _ _ _ => rfl⟩⟩
          simp only [hsel, List.drop_set, if_neg hqd]
          have := hder j hj
          have e : at' (p.drop (d * (d + 1))) (q - d * (d + 1)) = at' p q := by
            unfold at'
            simp only [List.getD_eq_getElem?_getD, List.getElem?_drop]
            congr 2; omega
          rw [e] at this
          exact this
      · have hsel : ∀ t, (FArdSt.setH s (p.set q t)).inner = s.inner := by
          intro t
          simp only [FArdSt.setH, if_neg h0]
        refine ⟨fun _ => 0, fun j _ => ?_, fun _ _ _ => rfl, fun h => absurd h h0⟩
        simp only [hsel]
        exact hasDerivAt_const _ _
    obtain ⟨dm, hdm, hdm0, hdmg⟩ := hin
    -- the derivative of one output
    have hmain : ∀ c < d, HasDerivAt (fun t => FArdSt.op (FArdSt.setH s (p.set q t)) x mo c)
        (∑ j ∈ range (d + 1), ((if c * (d + 1) + j = q then (if j < d then M.op (FArdSt.setH s p).inner x mo j else 1) else 0) +
          at' p (c * (d + 1) + j) * if j < d then dm j else 0)) (at' p q) := by
      intro c hc
      unfold FArdSt.op
      have hdd : ∀ t, (FArdSt.setH s (p.set q t)).d = d := fun _ => hd
      simp only [hdd]
      refine HasDerivAt.fun_sum fun j hj => ?_
      rw [mem_range] at hj
      have e : ∀ t, (FArdSt.setH s (p.set q t)).tr c j = at' (p.set q t) (c * (d + 1) + j) := by
        intro t
        simp only [FArdSt.setH, hd]
        exact if_pos ⟨hc, hj⟩
      simp only [e]
      have h1 := at'_deriv p q (c * (d + 1) + j) (by omega)
      have h2 : HasDerivAt (fun t => if j < d then M.op (FArdSt.setH s (p.set q t)).inner x mo j else 1) (if j < d then dm j else 0) (at' p q) := by
        split
        · rename_i hjd; exact hdm j hjd
        · exact hasDerivAt_const _ _
      have h3 := h1.fun_mul h2
      rw [at'_set_self p q (by omega)] at h3
      refine h3.congr_deriv ?_
      congr 1
      split
      · rw [one_mul]
      · rw [zero_mul]
    have hown : ∀ c < d, q < d * (d + 1) →
        ∑ j ∈ range (d + 1), ((if c * (d + 1) + j = q then (if j < d then M.op (FArdSt.setH s p).inner x mo j else 1) else 0) +
          at' p (c * (d + 1) + j) * if j < d then dm j else 0)
        = if c * (d + 1) ≤ q ∧ q < c * (d + 1) + d then M.op (FArdSt.setH s p).inner x mo (q - c * (d + 1))
          else if q = (c + 1) * (d + 1) - 1 then 1 else 0 := by
      intro c hc hqd
      have hz : ∀ j, (at' p (c * (d + 1) + j) * if j < d then dm j else 0) = 0 := by
        intro j
        split
        · rename_i hj; rw [hdm0 hqd j hj, mul_zero]
        · rw [mul_zero]
      simp only [hz, add_zero]
      have hexp : (c + 1) * (d + 1) = c * (d + 1) + (d + 1) := by ring
      by_cases h1 : c * (d + 1) ≤ q ∧ q < c * (d + 1) + d
      · rw [if_pos h1, sum_eq_single (q - c * (d + 1))]
        · rw [if_pos (by omega), if_pos (by omega)]
        · intro b _ hb; exact if_neg (by omega)
        · intro h; exact absurd (mem_range.2 (by omega)) h
      · rw [if_neg h1]
        by_cases h2 : q = (c + 1) * (d + 1) - 1
        · rw [if_pos h2, sum_eq_single d]
          · rw [if_pos (by omega), if_neg (by omega)]
          · intro b _ hb; exact if_neg (by omega)
          · intro h; exact absurd (mem_range.2 (by omega)) h
        · rw [if_neg h2]
          apply sum_eq_zero
          intro j hj
          rw [mem_range] at hj
          exact if_neg (by omega)
    have hs_in : M.hSize (FArdSt.setH s p).inner = M.hSize s.inner := by
      simp only [FArdSt.setH]
      split
      · exact hM.size_set d _ _ hri
      · rfl
    have hdset : (FArdSt.setH s p).d = d := hd
    show ∃ g, FArdSt.grad (FArdSt.setH s p) x mo = some g ∧ _
    unfold FArdSt.grad
    simp only [hdset, hs_in, FArdSt.hSize]
    by_cases h0 : M.hSize s.inner > 0
    · obtain ⟨g, hg, hgd⟩ := hdmg h0
      simp only [if_pos h0, hg, Option.bind_eq_bind, Option.bind_some]
      refine ⟨_, rfl, fun c hc => (hmain c hc).congr_deriv ?_⟩
      rw [Nat.add_sub_cancel]
      by_cases hqd : q ≥ d * (d + 1)
      · rw [if_pos hqd]
        apply sum_congr rfl
        intro j hj
        rw [mem_range] at hj
        have := fard_pos hc hj
        rw [if_neg (by omega), zero_add]
        have e : (FArdSt.setH s p).tr c j = at' p (c * (d + 1) + j) := by
          simp only [FArdSt.setH, hd]
          exact if_pos ⟨hc, hj⟩
        rw [e]
        congr 1
        by_cases hjd : j < d
        · rw [if_pos hjd, if_pos hjd, hgd hqd j hjd]
        · rw [if_neg hjd, if_neg hjd]
      · rw [if_neg hqd]
        exact hown c hc (by omega)
    · simp only [if_neg h0]
      refine ⟨_, rfl, fun c hc => (hmain c hc).congr_deriv ?_⟩
      exact hown c hc (by omega)

theorem std_mean_ok {M : MeanImpl} (h : StdMean M) : MeanOK M := by
  induction h with
  | null => exact nullMean_ok
  | const c => exact constMean_ok c
  | data => exact dataMean_ok
  | ard _ ih => exact fard_ok ih

end Limbo
