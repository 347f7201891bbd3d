import Verif.Lemmas.Imgpo5
import Verif.Spec.Imgpo2

/-! Selection and expansion of leaves in one pass of IMGPO. -/

namespace Limbo

variable {M : Type}

/-- the part of a level that evaluating a cell does not change -/
def lkey (L : Lev XR) : Nat × List (List XR) × List Bool := (L.x.length, L.f, L.leaf)

theorem lkey_get {T T' : List (Lev XR)} (h : T'.map lkey = T.map lkey) {k : Nat} {L' : Lev XR} (hL : T'[k]? = some L') :
    ∃ L, T[k]? = some L ∧ lkey L' = lkey L := by
  have : (T.map lkey)[k]? = some (lkey L') := by rw [← h, List.getElem?_map, hL]; rfl
  rw [List.getElem?_map, Option.map_eq_some_iff] at this
  obtain ⟨L, h1, h2⟩ := this
  exact ⟨L, h1, h2.symm⟩

theorem LeafWith.congr {afun : List XR → XR} {T T' : List (Lev XR)} (h : T'.map lkey = T.map lkey) {k i : Nat} {b : XR} (hl : LeafWith afun T' k i b) :
    LeafWith afun T k i b := by
  obtain ⟨L', v, h1, h2, h3, h4⟩ := hl
  obtain ⟨L, e1, e2⟩ := lkey_get h h1
  simp only [lkey, Prod.mk.injEq] at e2
  exact ⟨L, v, e1, by rw [← e2.2.2]; exact h2, by rw [← e2.2.1]; exact h3, h4⟩

theorem lkey_modify_samp (T : List (Lev XR)) (h i : Nat) (b : Bool) : (T.modify h fun L => { L with samp := L.samp.set i b }).map lkey = T.map lkey := by
  apply List.ext_getElem?
  intro k
  rw [List.getElem?_map, List.getElem?_map, List.getElem?_modify]
  cases T[k]? with
  | none => rfl
  | some L => by_cases e : h = k <;> simp [e, lkey]

/-- what a scan of a level finds -/
theorem imScan_best (afun : List XR → XR) (L : Lev XR) : ∀ (is : List Nat) (b : XR) (r : Option (Nat × XR)) (p : XR × Option (Nat × XR)),
    imScan afun L is b r = some p →
    (∀ i ∈ is, ∀ v, L.leaf[i]? = some true → L.f[i]? = some v → lt p.1 (afun v) = false) ∧
    ((p = (b, r)) ∨ (lt b p.1 = true ∧ ∃ i v, p.2 = some (i, p.1) ∧ L.leaf[i]? = some true ∧ L.f[i]? = some v ∧ afun v = p.1)) := by
  intro is
  induction is with
  | nil => intro b r p h; simp only [imScan, Option.some.injEq] at h; exact ⟨by simp, Or.inl h.symm⟩
  | cons j js ih =>
    intro b r p h
    unfold imScan at h
    cases hlf : L.leaf[j]? with
    | none => rw [hlf] at h; cases h
    | some t =>
      rw [hlf] at h
      cases t with
      | false =>
        obtain ⟨h1, h2⟩ := ih b r p h
        refine ⟨fun i hi v hv => ?_, h2⟩
        rcases List.mem_cons.1 hi with rfl | hi
        · rw [hlf] at hv; cases hv
        · exact h1 i hi v hv
      | true =>
        cases hf : L.f[j]? with
        | none => rw [hf] at h; cases h
        | some v =>
          rw [hf] at h
          simp only at h
          by_cases hlt : lt b (afun v) = true
          · rw [if_pos hlt] at h
            obtain ⟨h1, h2⟩ := ih _ _ p h
            have hp : p.1 = afun v ∨ lt (afun v) p.1 = true := by
              rcases h2 with h2 | h2
              · left; rw [h2]
              · right; exact h2.1
            refine ⟨fun i hi w hw1 hw2 => ?_, Or.inr ?_⟩
            · rcases List.mem_cons.1 hi with rfl | hi
              · rw [hf] at hw2; cases hw2
                rcases hp with e | e
                · rw [e]; exact LawfulCmp.lt_irrefl' _
                · exact LawfulCmp.lt_asymm' e
              · exact h1 i hi w hw1 hw2
            · rcases h2 with h2 | ⟨h2, i, w, h3⟩
              · rw [h2]; exact ⟨hlt, j, v, rfl, hlf, hf, rfl⟩
              · exact ⟨LawfulCmp.lt_trans' hlt h2, i, w, h3⟩
          · rw [if_neg hlt] at h
            obtain ⟨h1, h2⟩ := ih b r p h
            refine ⟨fun i hi w hw1 hw2 => ?_, h2⟩
            rcases List.mem_cons.1 hi with rfl | hi
            · rw [hf] at hw2; cases hw2
              rcases h2 with h2 | ⟨h2, -⟩
              · rw [h2]; simpa using hlt
              · cases hh : lt p.1 (afun v) with
                | false => rfl
                | true => exact absurd (LawfulCmp.lt_trans' h2 hh) hlt
            · exact h1 i hi w hw1 hw2

/-- a second scan changes nothing -/
theorem imScan_again (afun : List XR → XR) (L : Lev XR) {is : List Nat} {b : XR} {p : XR × Option (Nat × XR)}
    (hall : ∀ i ∈ is, ∀ v, L.leaf[i]? = some true → L.f[i]? = some v → lt b (afun v) = false) (h : imScan afun L is b none = some p) : p = (b, none) := by
  obtain ⟨-, h2⟩ := imScan_best afun L is b none p h
  induction is with
  | nil => simp only [imScan, Option.some.injEq] at h; exact h.symm
  | cons j js ih =>
    unfold imScan at h
    cases hlf : L.leaf[j]? with
    | none => rw [hlf] at h; cases h
    | some t =>
      rw [hlf] at h
      cases t with
      | false => exact ih (fun i hi => hall i (by simp [hi])) h
      | true =>
        cases hf : L.f[j]? with
        | none => rw [hf] at h; cases h
        | some v =>
          rw [hf] at h
          simp only [hall j (by simp) v hlf hf, Bool.false_eq_true, if_false] at h
          exact ih (fun i hi => hall i (by simp [hi])) h

/-- between two states at most `k` evaluations were made, all with finite results -/
def Evals (k : Nat) (b b' : BoState XR M) : Prop :=
  ∃ new : List (List XR), b'.observations = b.observations ++ new ∧ new.length ≤ k ∧ b'.currentIteration = b.currentIteration + new.length ∧
    ∀ v ∈ new, AllFinite v

theorem Evals.refl (b : BoState XR M) : Evals 0 b b := ⟨[], by simp, by simp, by simp, by simp⟩

theorem Evals.trans {k l : Nat} {a b c : BoState XR M} (h : Evals k a b) (h' : Evals l b c) : Evals (k + l) a c := by
  obtain ⟨n1, a1, a2, a3, a4⟩ := h
  obtain ⟨n2, b1, b2, b3, b4⟩ := h'
  refine ⟨n1 ++ n2, by rw [b1, a1, List.append_assoc], by rw [List.length_append]; omega, by rw [b3, a3, List.length_append]; push_cast; ring, ?_⟩
  intro v hv
  rcases List.mem_append.1 hv with hv | hv
  · exact a4 v hv
  · exact b4 v hv

theorem Evals.mono {k l : Nat} {a b : BoState XR M} (h : Evals k a b) (hl : k ≤ l) : Evals l a b := by
  obtain ⟨n1, a1, a2, a3, a4⟩ := h
  exact ⟨n1, a1, a2.trans hl, a3, a4⟩

theorem imBase_ok {st st' : ImState XR M} {r : Res (BoState XR M)} (h : imBase st r = .ok st') : ∃ b, r = .ok b ∧ st' = { st with base := b } := by
  unfold imBase at h
  cases r with
  | ok b => exact ⟨b, rfl, by simp only [Res.bind, Res.ok.injEq] at h; exact h.symm⟩
  | throw e b => simp [Res.bind] at h
  | ub => simp [Res.bind] at h
  | diverge => simp [Res.bind] at h

theorem imLev_ok {st st' : ImState XR M} {h : Nat} {g : Lev XR → Lev XR} (hr : imLev st h g = .ok st') : h < st.tree.length ∧ st' = { st with tree := st.tree.modify h g } := by
  unfold imLev at hr
  split at hr
  · next hh => exact ⟨hh, by simp only [Res.ok.injEq] at hr; exact hr.symm⟩
  · cases hr

theorem addNewSample_ok' {x v : List XR} {b b' : BoState XR M} (h : addNewSample x v b = .ok b') :
    AllFinite v ∧ b' = { b with samples := b.samples ++ [x], observations := b.observations ++ [v] } := by
  unfold addNewSample at h
  by_cases hv : isNanOrInf v = true
  · rw [if_pos hv] at h; cases h
  · rw [if_neg hv] at h
    simp only [Res.ok.injEq] at h
    refine ⟨?_, h.symm⟩
    exact (isNanOrInf_false v).1 (by simpa using hv)

end Limbo
