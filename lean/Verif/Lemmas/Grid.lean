import Verif.Model.Init
import Verif.Spec.Grid
import Verif.Lemmas.XtLaws
import Mathlib.Tactic.FieldSimp
import Mathlib.Tactic.Ring
import Mathlib.Tactic.NormNum

namespace Limbo

variable {α : Type}
open LawfulCmp

/-! ### GridSearch -/

section
variable [Scalar α] [LawfulCmp α] {f : ObjFn α} {cand : α → Option (Option (List α) × List (List α))}

theorem gsFold_spec (c : α → List α) (t : α → List (List α)) : ∀ (xs : List α) (best : α) (res : Option (List α)) (tr : List (List α)),
    (∀ x ∈ xs, cand x = some (some (c x), t x)) → isNaN best = false →
    ∃ res' tr', gsFold f cand xs best res tr = some (res', tr') ∧
      (∀ p ∈ tr', p ∈ tr ∨ ∃ x ∈ xs, p ∈ t x ∨ p = c x) ∧
      (((∀ x ∈ xs, lt best (evalNoGrad f (c x)) = false) ∧ res' = res) ∨
       (∃ x ∈ xs, res' = some (c x) ∧ lt best (evalNoGrad f (c x)) = true ∧
          ∀ y ∈ xs, lt (evalNoGrad f (c x)) (evalNoGrad f (c y)) = false))
  | [], best, res, tr, _, _ => ⟨res, tr, rfl, fun p hp => Or.inl hp, Or.inl ⟨by simp, rfl⟩⟩
  | x :: xs, best, res, tr, hc, hb => by
    have hcx := hc x (by simp)
    have hcs : ∀ y ∈ xs, cand y = some (some (c y), t y) := fun y hy => hc y (by simp [hy])
    simp only [gsFold, hcx]
    by_cases hlt : lt best (evalNoGrad f (c x)) = true
    · rw [if_pos hlt]
      obtain ⟨res', tr', h1, h2, h3⟩ := gsFold_spec c t xs (evalNoGrad f (c x)) (some (c x)) (tr ++ t x ++ [c x]) hcs
        (not_nan_of_lt hlt).2
      refine ⟨res', tr', h1, ?_, Or.inr ?_⟩
      · intro p hp
        rcases h2 p hp with h | ⟨y, hy, h⟩
        · simp only [List.mem_append, List.mem_singleton] at h
          rcases h with (h | h) | h
          · exact Or.inl h
          · exact Or.inr ⟨x, by simp, Or.inl h⟩
          · exact Or.inr ⟨x, by simp, Or.inr h⟩
        · exact Or.inr ⟨y, by simp [hy], h⟩
      · rcases h3 with ⟨h3, h4⟩ | ⟨y, hy, h4, h5, h6⟩
        · refine ⟨x, by simp, h4, hlt, ?_⟩
          intro y hy
          rcases List.mem_cons.1 hy with rfl | hy
          · exact lt_irrefl' _
          · exact h3 y hy
        · refine ⟨y, by simp [hy], h4, lt_trans' hlt h5, ?_⟩
          intro z hz
          rcases List.mem_cons.1 hz with rfl | hz
          · exact lt_asymm' h5
          · exact h6 z hz
    · rw [if_neg hlt]
      obtain ⟨res', tr', h1, h2, h3⟩ := gsFold_spec c t xs best res (tr ++ t x ++ [c x]) hcs hb
      have hlt' : lt best (evalNoGrad f (c x)) = false := by simpa using hlt
      refine ⟨res', tr', h1, ?_, ?_⟩
      · intro p hp
        rcases h2 p hp with h | ⟨y, hy, h⟩
        · simp only [List.mem_append, List.mem_singleton] at h
          rcases h with (h | h) | h
          · exact Or.inl h
          · exact Or.inr ⟨x, by simp, Or.inl h⟩
          · exact Or.inr ⟨x, by simp, Or.inr h⟩
        · exact Or.inr ⟨y, by simp [hy], h⟩
      · rcases h3 with ⟨h3, h4⟩ | ⟨y, hy, h4, h5, h6⟩
        · refine Or.inl ⟨?_, h4⟩
          intro y hy
          rcases List.mem_cons.1 hy with rfl | hy
          · exact hlt'
          · exact h3 y hy
        · refine Or.inr ⟨y, by simp [hy], h4, h5, ?_⟩
          intro z hz
          rcases List.mem_cons.1 hz with rfl | hz
          · cases hh : lt (evalNoGrad f (c y)) (evalNoGrad f (c z)) with
            | false => rfl
            | true => rw [lt_trans' h5 hh] at hlt'; simp at hlt'
          · exact h6 z hz

omit [LawfulCmp α] in
theorem gsFold_none (bad : α) (hbad : ∀ p tr, cand bad ≠ some (some p, tr)) : ∀ (xs : List α), bad ∈ xs →
    ∀ (best : α) (res : Option (List α)) (tr : List (List α)), gsFold f cand xs best res tr = none
  | [], h, _, _, _ => by simp at h
  | x :: xs, h, best, res, tr => by
    simp only [gsFold]
    split
    · rename_i p tr' hc
      rcases List.mem_cons.1 h with rfl | h
      · exact absurd hc (hbad p tr')
      · split_ifs
        · exact gsFold_none bad hbad xs h _ _ _
        · exact gsFold_none bad hbad xs h _ _ _
    · rfl

omit [LawfulCmp α] in
theorem gsFold_trace' {axis : List α} (P : List α → Prop)
    (hc : ∀ x ∈ axis, ∀ r tr, cand x = some (r, tr) → (∀ q ∈ tr, P q) ∧ ∀ q, r = some q → P q) :
    ∀ (xs : List α) (best : α) (res : Option (List α)) (tr : List (List α)) (r : Option (List α)) (tr' : List (List α)),
    (∀ x ∈ xs, x ∈ axis) → (∀ q ∈ tr, P q) → (∀ q, res = some q → P q) → gsFold f cand xs best res tr = some (r, tr') →
    (∀ q ∈ tr', P q) ∧ ∀ q, r = some q → P q
  | [], best, res, tr, r, tr', _, h1, h2, h => by
    simp only [gsFold, Option.some.injEq, Prod.mk.injEq] at h
    rw [← h.1, ← h.2]; exact ⟨h1, h2⟩
  | x :: xs, best, res, tr, r, tr', hx, h1, h2, h => by
    simp only [gsFold] at h
    split at h
    · rename_i p t hcx
      obtain ⟨a, b⟩ := hc x (hx x (by simp)) _ _ hcx
      have hp := b p rfl
      have htr : ∀ q ∈ tr ++ t ++ [p], P q := by
        intro q hq
        simp only [List.mem_append, List.mem_singleton] at hq
        rcases hq with (hq | hq) | rfl
        · exact h1 q hq
        · exact a q hq
        · exact hp
      have hx' : ∀ y ∈ xs, y ∈ axis := fun y hy => hx y (by simp [hy])
      split_ifs at h
      · exact gsFold_trace' P hc xs _ _ _ _ _ hx' htr (by rintro q ⟨⟩; exact hp) h
      · exact gsFold_trace' P hc xs _ _ _ _ _ hx' htr h2 h
    · simp at h

omit [LawfulCmp α] in
theorem negDblMax_not_nan [LawfulArith α] : isNaN (negDblMax : α) = false := by
  have h := LawfulArith.lit_mono (α := α) (-((2 ^ 53 - 1) * 2 ^ 971)) 0 (by norm_num)
  exact (not_nan_of_le h).1

end

theorem set_append_cons (pre : List α) (r x : α) (rest : List α) :
    (pre ++ r :: rest).set pre.length x = pre ++ x :: rest := by
  simp

section
variable [Scalar α] [LawfulArith α]

theorem gsInner_spec (f : ObjFn α) (axis : List α) (hax : axis ≠ []) : ∀ (rest : List α) (fuel : Nat) (pre : List α), rest ≠ [] →
    rest.length ≤ fuel →
    (∀ t, OnGrid axis (rest.length - 1) t → ∃ x ∈ axis, lt negDblMax (evalNoGrad f (pre ++ (t ++ [x]))) = true) →
    ∃ t tr, gsInner f axis fuel pre.length (pre ++ rest) = some (some (pre ++ t), tr) ∧ OnGrid axis rest.length t ∧
      lt negDblMax (evalNoGrad f (pre ++ t)) = true ∧
      (∀ t', OnGrid axis rest.length t' → lt (evalNoGrad f (pre ++ t)) (evalNoGrad f (pre ++ t')) = false)
  | [], _, _, h, _, _ => absurd rfl h
  | [r], fuel, pre, _, hf, hH => by
    obtain ⟨fuel, rfl⟩ : ∃ k, fuel = k + 1 := ⟨fuel - 1, by simp at hf; omega⟩
    have hlt : pre.length < (pre ++ [r]).length := by simp
    have heq : pre.length = (pre ++ [r]).length - 1 := by simp
    simp only [gsInner, if_pos hlt, ← heq, if_true, set_append_cons]
    obtain ⟨x0, hx0, hv0⟩ := hH [] ⟨rfl, by simp⟩
    obtain ⟨res', tr', h1, h2, h3⟩ := gsFold_spec (f := f) (cand := fun x => some (some (pre ++ [x]), []))
      (fun x => pre ++ [x]) (fun _ => []) axis negDblMax none [] (fun x _ => rfl) negDblMax_not_nan
    rcases h3 with ⟨h3, -⟩ | ⟨x, hx, h4, h5, h6⟩
    · have := h3 x0 hx0
      simp only [List.nil_append] at hv0
      rw [hv0] at this; simp at this
    · refine ⟨[x], tr', by rw [h1, h4], ⟨rfl, by simpa using hx⟩, h5, ?_⟩
      rintro t' ⟨hl, ht'⟩
      obtain ⟨y, rfl⟩ : ∃ y, t' = [y] := List.length_eq_one_iff.1 hl
      exact h6 y (ht' y (by simp))
  | r :: r2 :: rest, fuel, pre, _, hf, hH => by
    obtain ⟨fuel, rfl⟩ : ∃ k, fuel = k + 1 := ⟨fuel - 1, by simp at hf; omega⟩
    have hlt : pre.length < (pre ++ r :: r2 :: rest).length := by simp
    have hne : pre.length ≠ (pre ++ r :: r2 :: rest).length - 1 := by simp
    simp only [gsInner, if_pos hlt, if_neg hne, set_append_cons]
    have ih : ∀ x ∈ axis, ∃ t tr, gsInner f axis fuel (pre.length + 1) (pre ++ x :: r2 :: rest) = some (some (pre ++ x :: t), tr) ∧
        OnGrid axis (rest.length + 1) t ∧ lt negDblMax (evalNoGrad f (pre ++ x :: t)) = true ∧
        (∀ t', OnGrid axis (rest.length + 1) t' → lt (evalNoGrad f (pre ++ x :: t)) (evalNoGrad f (pre ++ x :: t')) = false) := by
      intro x hx
      obtain ⟨t, tr, a, b, c, d⟩ := gsInner_spec f axis hax (r2 :: rest) fuel (pre ++ [x]) (by simp)
        (by simp at hf ⊢; omega) (by
          rintro t ⟨ht1, ht2⟩
          obtain ⟨y, hy, hv⟩ := hH (x :: t) ⟨by simpa using ht1, by
            intro z hz
            rcases List.mem_cons.1 hz with rfl | hz
            · exact hx
            · exact ht2 z hz⟩
          exact ⟨y, hy, by simpa using hv⟩)
      refine ⟨t, tr, ?_, b, ?_, ?_⟩
      · simpa using a
      · simpa using c
      · intro t' ht'; simpa using d t' ht'
    classical
    let c : α → List α := fun x => if hx : x ∈ axis then pre ++ x :: (ih x hx).choose else []
    let t : α → List (List α) := fun x => if hx : x ∈ axis then (ih x hx).choose_spec.choose else []
    obtain ⟨res', tr', h1, h2, h3⟩ := gsFold_spec (f := f)
      (cand := fun x => gsInner f axis fuel (pre.length + 1) (pre ++ x :: r2 :: rest)) c t axis negDblMax none []
      (fun x hx => by
        have := (ih x hx).choose_spec.choose_spec.1
        simp only [c, t, dif_pos hx]; exact this) negDblMax_not_nan
    have hval : ∀ x ∈ axis, ∃ u, c x = pre ++ x :: u ∧ OnGrid axis (rest.length + 1) u ∧
        lt negDblMax (evalNoGrad f (pre ++ x :: u)) = true ∧
        (∀ t', OnGrid axis (rest.length + 1) t' → lt (evalNoGrad f (pre ++ x :: u)) (evalNoGrad f (pre ++ x :: t')) = false) := by
      intro x hx
      refine ⟨(ih x hx).choose, by simp only [c, dif_pos hx], ?_⟩
      exact (ih x hx).choose_spec.choose_spec.2
    obtain ⟨x0, hx0⟩ := List.exists_mem_of_ne_nil axis hax
    rcases h3 with ⟨h3, -⟩ | ⟨x, hx, h4, h5, h6⟩
    · obtain ⟨u, hu, -, hv, -⟩ := hval x0 hx0
      have := h3 x0 hx0
      rw [hu, hv] at this; simp at this
    · obtain ⟨u, hu, hg, hv, hm⟩ := hval x hx
      refine ⟨x :: u, tr', by rw [h1, h4, hu], ⟨by simp [hg.1], ?_⟩, hv, ?_⟩
      · intro z hz
        rcases List.mem_cons.1 hz with rfl | hz
        · exact hx
        · exact hg.2 z hz
      · rintro t' ⟨hl, ht'⟩
        cases t' with
        | nil => simp at hl
        | cons y w =>
          have hy : y ∈ axis := ht' y (by simp)
          obtain ⟨u', hu', -, hv', hm'⟩ := hval y hy
          have e1 := h6 y hy
          rw [hu, hu'] at e1
          have hw : OnGrid axis (rest.length + 1) w := ⟨by simpa using hl, fun z hz => ht' z (by simp [hz])⟩
          have e2 := hm' w hw
          cases hh : lt (evalNoGrad f (pre ++ x :: u)) (evalNoGrad f (pre ++ y :: w)) with
          | false => rfl
          | true =>
            have l1 := le_of_not_lt (not_nan_of_lt hv).2 (not_nan_of_lt hv').2 e1
            have := lt_of_le_of_lt l1 hh
            rw [e2] at this; simp at this

omit [LawfulArith α] in
/-- Trace and result of the nested search lie on `pre ++ grid`. -/
theorem gsInner_trace (f : ObjFn α) (axis : List α) : ∀ (rest : List α) (fuel : Nat) (pre : List α) (r : Option (List α))
    (tr : List (List α)), gsInner f axis fuel pre.length (pre ++ rest) = some (r, tr) →
    (∀ q ∈ tr, ∃ t, q = pre ++ t ∧ OnGrid axis rest.length t) ∧
    (∀ q, r = some q → ∃ t, q = pre ++ t ∧ OnGrid axis rest.length t)
  | [], fuel, pre, r, tr, h => by
    cases fuel <;> simp [gsInner] at h
  | [r0], fuel, pre, r, tr, h => by
    cases fuel with
    | zero => simp [gsInner] at h
    | succ fuel =>
      have hlt : pre.length < (pre ++ [r0]).length := by simp
      have heq : pre.length = (pre ++ [r0]).length - 1 := by simp
      simp only [gsInner, if_pos hlt, ← heq, if_true, set_append_cons] at h
      exact gsFold_trace' (cand := fun x => some (some (pre ++ [x]), []))
        (fun q => ∃ t, q = pre ++ t ∧ OnGrid axis [r0].length t)
        (fun x hx r tr h => by
          simp only [Option.some.injEq, Prod.mk.injEq] at h
          rw [← h.1, ← h.2]
          refine ⟨by simp, ?_⟩
          rintro q ⟨⟩
          exact ⟨[x], rfl, rfl, by simpa using hx⟩) axis _ _ _ _ _ (fun x h => h) (by simp) (by simp) h
  | r0 :: r2 :: rest, fuel, pre, r, tr, h => by
    cases fuel with
    | zero => simp [gsInner] at h
    | succ fuel =>
      have hlt : pre.length < (pre ++ r0 :: r2 :: rest).length := by simp
      have hne : pre.length ≠ (pre ++ r0 :: r2 :: rest).length - 1 := by simp
      simp only [gsInner, if_pos hlt, if_neg hne, set_append_cons] at h
      refine gsFold_trace' (cand := fun x => gsInner f axis fuel (pre.length + 1) (pre ++ x :: r2 :: rest))
        (fun q => ∃ t, q = pre ++ t ∧ OnGrid axis (r0 :: r2 :: rest).length t) ?_ axis _ _ _ _ _ (fun x h => h)
        (by simp) (by simp) h
      intro x hx r tr h
      have key : ∀ q, (∃ t, q = (pre ++ [x]) ++ t ∧ OnGrid axis (r2 :: rest).length t) →
          ∃ t, q = pre ++ t ∧ OnGrid axis (r0 :: r2 :: rest).length t := by
        rintro q ⟨t, rfl, ht⟩
        refine ⟨x :: t, by simp, by simpa using ht.1, ?_⟩
        intro z hz
        rcases List.mem_cons.1 hz with rfl | hz
        · exact hx
        · exact ht.2 z hz
      obtain ⟨a, b⟩ := gsInner_trace f axis (r2 :: rest) fuel (pre ++ [x]) r tr (by simpa using h)
      exact ⟨fun q hq => key q (a q hq), fun q hq => key q (b q hq)⟩

/-- If some innermost line has no value above `-DBL_MAX`, an uninitialised vector is used. -/
theorem gsInner_bad (f : ObjFn α) (axis : List α) : ∀ (rest : List α) (fuel : Nat) (pre : List α) (t : List α), rest ≠ [] →
    OnGrid axis (rest.length - 1) t → (∀ x ∈ axis, lt negDblMax (evalNoGrad f (pre ++ (t ++ [x]))) = false) →
    ∀ p tr, gsInner f axis fuel pre.length (pre ++ rest) ≠ some (some p, tr)
  | [], _, _, _, h, _, _ => absurd rfl h
  | [r], fuel, pre, t, _, ht, hb => by
    intro p tr h
    cases fuel with
    | zero => simp [gsInner] at h
    | succ fuel =>
      have htn : t = [] := List.length_eq_zero_iff.1 ht.1
      subst htn
      have hlt : pre.length < (pre ++ [r]).length := by simp
      have heq : pre.length = (pre ++ [r]).length - 1 := by simp
      simp only [gsInner, if_pos hlt, ← heq, if_true, set_append_cons] at h
      obtain ⟨res', tr', h1, h2, h3⟩ := gsFold_spec (f := f) (cand := fun x => some (some (pre ++ [x]), []))
        (fun x => pre ++ [x]) (fun _ => []) axis negDblMax none [] (fun x _ => rfl) negDblMax_not_nan
      rw [h1] at h
      rcases h3 with ⟨h3, h4⟩ | ⟨x, hx, h4, h5, h6⟩
      · simp [h4] at h
      · have := hb x hx
        simp only [List.nil_append] at this
        rw [this] at h5; simp at h5
  | r :: r2 :: rest, fuel, pre, t, _, ht, hb => by
    intro p tr h
    cases fuel with
    | zero => simp [gsInner] at h
    | succ fuel =>
      have hlt : pre.length < (pre ++ r :: r2 :: rest).length := by simp
      have hne : pre.length ≠ (pre ++ r :: r2 :: rest).length - 1 := by simp
      simp only [gsInner, if_pos hlt, if_neg hne, set_append_cons] at h
      cases t with
      | nil => simp [OnGrid] at ht
      | cons x t =>
        have hx : x ∈ axis := ht.2 x (by simp)
        rw [gsFold_none (f := f) (cand := fun x => gsInner f axis fuel (pre.length + 1) (pre ++ x :: r2 :: rest)) x ?_ axis hx] at h
        · simp at h
        · have := gsInner_bad f axis (r2 :: rest) fuel (pre ++ [x]) t (by simp)
            ⟨by simpa [OnGrid] using ht.1, fun z hz => ht.2 z (by simp [hz])⟩ (by
              intro y hy; simpa using hb y hy)
          simpa using this
end

/-! ### The axis in exact arithmetic -/

theorem XR.div_lit (a b : ℚ) (hb : b ≠ 0) : (lit a / lit b : XR) = XR.fin ((a : ℝ) / b) := by
  show Xt.div Xt.fin (Xt.fin (a : ℝ)) (Xt.fin (b : ℝ)) = Xt.fin _
  have : (b : ℝ) ≠ 0 := by exact_mod_cast hb
  simp [Xt.div, this]

theorem XR.lt_fin' (a b : ℝ) : lt (XR.fin a) (XR.fin b) = decide (a < b) := by
  rw [Bool.eq_iff_iff]; simp

theorem XR.le_fin' (a b : ℝ) : le (XR.fin a) (XR.fin b) = decide (a ≤ b) := by
  rw [Bool.eq_iff_iff]; simp

theorem ltSweep_exact (b : Nat) (hb : 0 < b) : ∀ (n k extra : Nat), k + n = b + 1 →
    ltSweep (XR.fin (1 / (b : ℝ))) (XR.fin (1 + 1 / (b : ℝ))) (n + 1 + extra) (XR.fin ((k : ℝ) / b)) =
      some ((List.range' k n).map fun k : ℕ => XR.fin ((k : ℝ) / b))
  | 0, k, extra, h => by
    have hb' : (0 : ℝ) < b := by exact_mod_cast hb
    have hk : (k : ℝ) = b + 1 := by exact_mod_cast (by omega : k = b + 1)
    have hn : ¬ ((k : ℝ) / b < 1 + 1 / b) := by
      rw [hk]; field_simp; simp
    have : 0 + 1 + extra = extra + 1 := by omega
    rw [this]
    simp only [ltSweep, XR.lt_fin', hn, decide_false]
    rfl
  | n + 1, k, extra, h => by
    have hb' : (0 : ℝ) < b := by exact_mod_cast hb
    have hk : (k : ℝ) < b + 1 := by exact_mod_cast (by omega : k < b + 1)
    have hn : ((k : ℝ) / b < 1 + 1 / b) := by
      field_simp; linarith
    have e : n + 1 + 1 + extra = (n + 1 + extra) + 1 := by omega
    rw [e]
    simp only [ltSweep, XR.lt_fin', hn, decide_true, if_true, XR.add_fin]
    have e2 : (k : ℝ) / b + 1 / b = ((k + 1 : ℕ) : ℝ) / b := by push_cast; field_simp
    rw [e2, ltSweep_exact b hb n (k + 1) extra (by omega)]
    simp [List.range'_succ]

theorem leSweep_exact (b : Nat) (hb : 0 < b) : ∀ (n k extra : Nat), k + n = b + 1 →
    leSweep (XR.fin (1 / (b : ℝ))) (XR.fin 1) (n + 1 + extra) (XR.fin ((k : ℝ) / b)) =
      some ((List.range' k n).map fun k : ℕ => XR.fin ((k : ℝ) / b))
  | 0, k, extra, h => by
    have hb' : (0 : ℝ) < b := by exact_mod_cast hb
    have hk : (k : ℝ) = b + 1 := by exact_mod_cast (by omega : k = b + 1)
    have hn : ¬ ((k : ℝ) / b ≤ 1) := by
      rw [hk, not_le]; field_simp; simp
    have : 0 + 1 + extra = extra + 1 := by omega
    rw [this]
    simp only [leSweep, XR.le_fin', hn, decide_false]
    rfl
  | n + 1, k, extra, h => by
    have hb' : (0 : ℝ) < b := by exact_mod_cast hb
    have hk : (k : ℝ) ≤ b := by exact_mod_cast (by omega : k ≤ b)
    have hn : ((k : ℝ) / b ≤ 1) := by
      rw [div_le_one hb']; exact hk
    have e : n + 1 + 1 + extra = (n + 1 + extra) + 1 := by omega
    rw [e]
    simp only [leSweep, XR.le_fin', hn, decide_true, if_true, XR.add_fin]
    have e2 : (k : ℝ) / b + 1 / b = ((k + 1 : ℕ) : ℝ) / b := by push_cast; field_simp
    rw [e2, leSweep_exact b hb n (k + 1) extra (by omega)]
    simp [List.range'_succ]

theorem gridSearchAxis_exact (b fuel : Nat) (hb : 0 < b) (hf : b + 2 ≤ fuel) :
    gridSearchAxis (α := XR) b fuel = some (regularAxis b) := by
  obtain ⟨extra, rfl⟩ : ∃ e, fuel = (b + 1) + 1 + e := ⟨fuel - (b + 2), by omega⟩
  have hb' : ((b : ℚ)) ≠ 0 := by exact_mod_cast hb.ne'
  have h := ltSweep_exact b hb (b + 1) 0 extra (by omega)
  unfold gridSearchAxis regularAxis
  simp only [XR.div_lit 1 b hb']
  have e1 : (lit 1 : XR) + XR.fin (((1 : ℚ) : ℝ) / ((b : ℚ) : ℝ)) = XR.fin (1 + 1 / (b : ℝ)) := by
    rw [XR.lit_eq, XR.add_fin]; push_cast; rfl
  have e2 : (lit 0 : XR) = XR.fin (((0 : ℕ) : ℝ) / b) := by rw [XR.lit_eq]; simp
  have e3 : XR.fin (((1 : ℚ) : ℝ) / ((b : ℚ) : ℝ)) = XR.fin (1 / (b : ℝ)) := by push_cast; rfl
  rw [e1, e2, e3, h, List.range_eq_range']

theorem gridSamplingAxis_exact (b fuel : Nat) (hb : 0 < b) (hf : b + 2 ≤ fuel) :
    gridSamplingAxis (α := XR) b fuel = some (regularAxis b) := by
  obtain ⟨extra, rfl⟩ : ∃ e, fuel = (b + 1) + 1 + e := ⟨fuel - (b + 2), by omega⟩
  have hb' : ((b : ℚ)) ≠ 0 := by exact_mod_cast hb.ne'
  have h := leSweep_exact b hb (b + 1) 0 extra (by omega)
  unfold gridSamplingAxis regularAxis
  simp only [XR.div_lit 1 b hb']
  have e1 : (lit 1 : XR) = XR.fin 1 := by rw [XR.lit_eq]; simp
  have e2 : (lit 0 : XR) = XR.fin (((0 : ℕ) : ℝ) / b) := by rw [XR.lit_eq]; simp
  have e3 : XR.fin (((1 : ℚ) : ℝ) / ((b : ℚ) : ℝ)) = XR.fin (1 / (b : ℝ)) := by push_cast; rfl
  rw [e1, e2, e3, h, List.range_eq_range']

theorem regularAxis_ne_nil (b : Nat) : regularAxis b ≠ [] := by simp [regularAxis]

theorem regularAxis_mem (b : Nat) (x : XR) : x ∈ regularAxis b ↔ ∃ k : ℕ, k ≤ b ∧ x = XR.fin ((k : ℝ) / b) := by
  simp only [regularAxis, List.mem_map, List.mem_range]
  constructor
  · rintro ⟨k, hk, rfl⟩; exact ⟨k, by omega, rfl⟩
  · rintro ⟨k, hk, rfl⟩; exact ⟨k, by omega, rfl⟩

/-! ### GridSampling -/

/-- Lexicographic enumeration of `axis^d`. -/
def lexGrid (axis : List α) : Nat → List (List α)
  | 0 => [[]]
  | d + 1 => axis.flatMap fun x => (lexGrid axis d).map (x :: ·)

theorem exploreAxis_eq (sub : α → Option (List (List α))) (g : α → List (List α)) : ∀ (xs : List α),
    (∀ x ∈ xs, sub x = some (g x)) → exploreAxis sub xs = some (xs.flatMap g)
  | [], _ => rfl
  | x :: xs, h => by
    simp [exploreAxis, h x (by simp), exploreAxis_eq sub g xs (fun y hy => h y (by simp [hy]))]

theorem explore_eq (axis : List α) : ∀ (rest : List α) (fuel : Nat) (pre : List α), rest ≠ [] → rest.length ≤ fuel →
    explore axis fuel pre.length (pre ++ rest) = some ((lexGrid axis rest.length).map (pre ++ ·))
  | [], _, _, h, _ => absurd rfl h
  | [r], fuel, pre, _, hf => by
    obtain ⟨fuel, rfl⟩ : ∃ k, fuel = k + 1 := ⟨fuel - 1, by simp at hf; omega⟩
    have hlt : pre.length < (pre ++ [r]).length := by simp
    have heq : pre.length = (pre ++ [r]).length - 1 := by simp
    simp only [explore, if_pos hlt, ← heq, if_true, set_append_cons]
    rw [exploreAxis_eq _ (fun x => [pre ++ [x]]) axis (fun x _ => rfl)]
    congr 1
    simp [lexGrid, List.flatMap_def, List.map_flatten]
    rfl
  | r :: r2 :: rest, fuel, pre, _, hf => by
    obtain ⟨fuel, rfl⟩ : ∃ k, fuel = k + 1 := ⟨fuel - 1, by simp at hf; omega⟩
    have hlt : pre.length < (pre ++ r :: r2 :: rest).length := by simp
    have hne : pre.length ≠ (pre ++ r :: r2 :: rest).length - 1 := by simp
    simp only [explore, if_pos hlt, if_neg hne, set_append_cons]
    rw [exploreAxis_eq _ (fun x => (lexGrid axis (rest.length + 1)).map ((pre ++ [x]) ++ ·)) axis]
    · simp only [List.length_cons]
      rw [show lexGrid axis (rest.length + 1 + 1) = axis.flatMap fun x => (lexGrid axis (rest.length + 1)).map (x :: ·) from rfl,
        List.map_flatMap]
      congr 1
      congr 1
      funext x
      rw [List.map_map]
      apply List.map_congr_left
      intro q _; simp
    · intro x _
      have := explore_eq axis (r2 :: rest) fuel (pre ++ [x]) (by simp) (by simp at hf ⊢; omega)
      simpa using this

theorem lexGrid_map {β : Type} (g : α → β) (axis : List α) : ∀ d, lexGrid (axis.map g) d = (lexGrid axis d).map (List.map g)
  | 0 => rfl
  | d + 1 => by
    simp only [lexGrid, lexGrid_map g axis d, List.flatMap_map, List.map_flatMap, List.map_map]
    rfl

theorem lexGrid_mem (axis : List α) : ∀ d q, q ∈ lexGrid axis d ↔ OnGrid axis d q
  | 0, q => by
    simp only [lexGrid, List.mem_singleton, OnGrid]
    constructor
    · rintro rfl; simp
    · rintro ⟨h, -⟩; exact List.length_eq_zero_iff.1 h
  | d + 1, q => by
    simp only [lexGrid, List.mem_flatMap, List.mem_map, lexGrid_mem axis d]
    constructor
    · rintro ⟨x, hx, t, ⟨h1, h2⟩, rfl⟩
      refine ⟨by simp [h1], ?_⟩
      intro z hz
      rcases List.mem_cons.1 hz with rfl | hz
      · exact hx
      · exact h2 z hz
    · rintro ⟨h1, h2⟩
      cases q with
      | nil => simp at h1
      | cons x t => exact ⟨x, h2 x (by simp), t, ⟨by simpa using h1, fun z hz => h2 z (by simp [hz])⟩, rfl⟩

theorem lexGrid_length (axis : List α) : ∀ d, (lexGrid axis d).length = axis.length ^ d
  | 0 => rfl
  | d + 1 => by
    simp only [lexGrid, List.length_flatMap, List.length_map, lexGrid_length axis d, List.map_const', List.sum_replicate]
    rw [pow_succ]; simp [mul_comm]

theorem lexGrid_sorted [LT α] (axis : List α) (h : axis.Pairwise (· < ·)) : ∀ d,
    (lexGrid axis d).Pairwise (List.Lex (· < ·))
  | 0 => by simp [lexGrid]
  | d + 1 => by
    simp only [lexGrid]
    rw [List.pairwise_flatMap]
    refine ⟨?_, ?_⟩
    · intro x _
      rw [List.pairwise_map]
      exact (lexGrid_sorted axis h d).imp (fun hlt => List.Lex.cons hlt)
    · refine h.imp ?_
      intro x y hxy p hp q hq
      rw [List.mem_map] at hp hq
      obtain ⟨p', -, rfl⟩ := hp
      obtain ⟨q', -, rfl⟩ := hq
      exact List.Lex.rel hxy

/-! ### ParallelRepeater -/

theorem allDefined_eq {β : Type} (g : Nat → Option β) (l : List Nat) (rs : List β) (h : allDefined (l.map g) = some rs) :
    rs.length = l.length ∧ ∀ (i : Nat) (a : Nat), l[i]? = some a → g a = rs[i]? := by
  induction l generalizing rs with
  | nil => simp [allDefined] at h; subst h; simp
  | cons x l ih =>
    simp only [List.map_cons] at h
    cases hx : g x with
    | none => simp [hx, allDefined] at h
    | some b =>
      rw [hx] at h
      simp only [allDefined, Option.map_eq_some_iff] at h
      obtain ⟨rs', hrs, rfl⟩ := h
      obtain ⟨h1, h2⟩ := ih rs' hrs
      refine ⟨by simp [h1], ?_⟩
      intro i a hi
      cases i with
      | zero => simp at hi; subst hi; simp [hx]
      | succ i => simpa using h2 i a (by simpa using hi)

end Limbo
