import Verif.Lemmas.Imgpo11

/-! IMGPO throws nothing by itself. -/

namespace Limbo

variable {M : Type}

/-- does not end with an exception -/
def Res.NoThrow {σ : Type} (r : Res σ) : Prop := ∀ e s, r ≠ .throw e s

theorem Res.NoThrow.andThen {σ : Type} {r : Res σ} {k : σ → Res σ} (h : r.NoThrow) (hk : ∀ s, (k s).NoThrow) : (r.andThen k).NoThrow := by
  cases r with
  | ok s => exact hk s
  | throw e s => exact absurd rfl (h e s)
  | ub => intro e s; simp [Res.andThen, Res.bind]
  | diverge => intro e s; simp [Res.andThen, Res.bind]

theorem Res.NoThrow.ok {σ : Type} (s : σ) : (Res.ok s).NoThrow := fun _ _ => by simp
theorem Res.NoThrow.ub {σ : Type} : (Res.ub : Res σ).NoThrow := fun _ _ => by simp
theorem Res.NoThrow.div {σ : Type} : (Res.diverge : Res σ).NoThrow := fun _ _ => by simp

/-- an objective that always returns finite numbers -/
def Calm (f : StateFun XR M) : Prop := ∀ tr x, ∃ v, f.call tr x = .ret v ∧ AllFinite v

theorem imBase_noThrow {st : ImState XR M} {r : Res (BoState XR M)} (h : r.NoThrow) : (imBase st r).NoThrow := by
  unfold imBase
  cases r with
  | ok s => exact .ok _
  | throw e s => exact absurd rfl (h e s)
  | ub => exact .ub
  | diverge => exact .div

theorem addNewSample_noThrow {x v : List XR} {b : BoState XR M} (hv : AllFinite v) : (addNewSample x v b).NoThrow := by
  unfold addNewSample
  rw [(isNanOrInf_false v).2 hv]
  exact .ok _

theorem evalAll_noThrow {f : StateFun XR M} (hf : Calm f) : ∀ (pts : List (List XR)) (b : BoState XR M), (evalAll f pts b).NoThrow := by
  intro pts
  induction pts with
  | nil => intro b; exact .ok _
  | cons x pts ih =>
    intro b
    unfold evalAll
    refine Res.NoThrow.andThen ?_ ih
    unfold evalAndAdd
    obtain ⟨v, hc, hv⟩ := hf b.trace x
    simp only [hc]
    exact addNewSample_noThrow hv

theorem boInit_noThrow {P : BoParams XR M} {f : StateFun XR M} (hf : Calm f) (reset : Bool) (b : BoState XR M) : (boInit P f reset b).NoThrow := by
  unfold boInit
  simp only
  repeat' split
  all_goals first | exact evalAll_noThrow hf _ _ | exact .ub | exact .ok _

variable {P : ImParams XR M} {f : StateFun XR M} {afun : List XR → XR}

theorem imLev_noThrow {st : ImState XR M} {h : Nat} {g : Lev XR → Lev XR} : (imLev st h g).NoThrow := by
  unfold imLev; split
  · exact .ok _
  · exact .ub

theorem imCompute_noThrow (hC : ∀ xs ys m, (P.bo.ops.compute xs ys m).NoThrow) (st : ImState XR M) : (imCompute P st).NoThrow := by
  unfold imCompute
  refine imBase_noThrow ?_
  unfold withModel
  have := hC st.base.samples st.base.observations st.base.model
  cases hc : P.bo.ops.compute st.base.samples st.base.observations st.base.model with
  | ok s => exact .ok _
  | throw e s => exact absurd hc (this e s)
  | ub => exact .ub
  | diverge => exact .div

theorem imVisit_noThrow (hf : Calm f) (h : Nat) : ∀ (n : Nat) (st : ImState XR M), (imVisit f afun h n st).NoThrow := by
  intro n
  induction n with
  | zero => intro st; exact .div
  | succ n ih =>
    intro st
    unfold imVisit
    split
    · exact .ub
    · split
      · exact .ub
      · simp only
        split
        · exact .ub
        · exact .ok _
        · split
          · exact .ok _
          · next x _ _ =>
            obtain ⟨v, hc, hv⟩ := hf (imScanned h _ st).base.trace x
            rw [hc]
            exact imLev_noThrow.andThen fun s => (imBase_noThrow (addNewSample_noThrow hv)).andThen fun s => ih _
          · exact .ub

theorem imChain_noThrow (hC : ∀ xs ys m, (P.bo.ops.compute xs ys m).NoThrow) {xx : List XR} {b : XR} : ∀ (n : Nat) (xmin xmax : List XR) (st : ImState XR M),
    (imChain P afun xx b n xmin xmax st).NoThrow := by
  intro n
  induction n with
  | zero => intro xmin xmax st; exact .ok _
  | succ n ih =>
    intro xmin xmax st
    unfold imChain
    split
    · exact .ub
    · split
      · refine (imCompute_noThrow hC _).andThen fun s => (imCompute_noThrow hC _).andThen fun s => ?_
        simp only
        split
        · exact .ok _
        · exact ih _ _ _
      · exact .ub

theorem imStep3_noThrow (hC : ∀ xs ys m, (P.bo.ops.compute xs ys m).NoThrow) (h : Nat) (st : ImState XR M) : (imStep3 P afun h st).NoThrow := by
  unfold imStep3
  split
  · exact .ub
  · exact .ok _
  · split
    · exact .ok _
    · split
      · split
        · refine (imChain_noThrow hC _ _ _ _).andThen fun s => ?_
          split
          · exact .ok _
          · exact .ok _
        · exact .ub
      · exact .ub

theorem imChild_noThrow (hf : Calm f) (hC : ∀ xs ys m, (P.bo.ops.compute xs ys m).NoThrow) (h : Nat) (x xmin xmax : List XR) (st : ImState XR M) :
    (imChild P f afun h x xmin xmax st).NoThrow := by
  unfold imChild
  refine imLev_noThrow.andThen fun s => (imCompute_noThrow hC _).andThen fun s => ?_
  split
  · exact imLev_noThrow
  · obtain ⟨v, hc, hv⟩ := hf s.base.trace x
    simp only [hc]
    refine imLev_noThrow.andThen fun s => (imBase_noThrow (addNewSample_noThrow hv)).andThen fun s => ?_
    split
    · exact .ub
    · exact imLev_noThrow

theorem imExpand_noThrow (hf : Calm f) (hC : ∀ xs ys m, (P.bo.ops.compute xs ys m).NoThrow) (h i : Nat) (st : ImState XR M) :
    (imExpand P f afun h i st).NoThrow := by
  unfold imExpand
  simp only
  split
  · exact .ub
  · refine imLev_noThrow.andThen fun s => ?_
    split
    · split
      · exact .ub
      · split
        · refine (imChild_noThrow hf hC _ _ _ _ _).andThen fun s => (imChild_noThrow hf hC _ _ _ _ _).andThen fun s => imLev_noThrow.andThen fun s => ?_
          split
          · exact .ub
          · exact .ok _
        · exact .ub
    · exact .ub

theorem imEach_noThrow {body : Nat → ImState XR M → Res (ImState XR M)} (hb : ∀ h s, (body h s).NoThrow) : ∀ (hs : List Nat) (s : ImState XR M), (imEach body hs s).NoThrow := by
  intro hs
  induction hs with
  | nil => intro s; exact .ok _
  | cons h hs ih => intro s; exact (hb h s).andThen ih

theorem imPass_noThrow (hf : Calm f) (hC : ∀ xs ys m, (P.bo.ops.compute xs ys m).NoThrow) (st : ImState XR M) : (imPass P f afun st).NoThrow := by
  unfold imPass
  refine (imEach_noThrow (fun h s => imVisit_noThrow hf h _ s) _ _).andThen fun s => (imEach_noThrow (fun h s => imStep3_noThrow hC h s) _ _).andThen fun s =>
    (imEach_noThrow (fun h s => ?_) _ _).andThen fun s => .ok _
  unfold imStep45
  split
  · exact .ok _
  · split
    · exact imExpand_noThrow hf hC _ _ _
    · exact .ok _
  · exact .ub

theorem imLoop_noThrow (hf : Calm f) (hC : ∀ xs ys m, (P.bo.ops.compute xs ys m).NoThrow) : ∀ (n : Nat) (st : ImState XR M), (imLoop P f afun n st).NoThrow := by
  intro n
  induction n with
  | zero => intro st; exact .div
  | succ n ih =>
    intro st
    unfold imLoop
    split
    · exact (imPass_noThrow hf hC _).andThen ih
    · split
      · exact .ub
      · exact .ok _
      · exact (imPass_noThrow hf hC _).andThen ih

theorem imRoot_noThrow (hf : Calm f) (st : ImState XR M) (ht : ∀ L, st.tree[0]? = some L → L.f = []) : (imRoot f afun st).NoThrow := by
  unfold imRoot
  intro e s hr
  by_cases hl : 0 < st.tree.length
  · obtain ⟨L, hL⟩ : ∃ L, st.tree[0]? = some L := ⟨_, List.getElem?_eq_getElem hl⟩
    have hLf := ht L hL
    revert hr
    simp only [imLev, if_pos hl, Res.andThen, Res.bind, List.getElem?_modify, hL, Option.map_eq_map, Option.map_some, if_true, Option.bind_some]
    split
    · simp
    · next x0 _ =>
      obtain ⟨v, hc, hv⟩ := hf st.base.trace x0
      simp only [hc, List.length_modify, if_pos hl, List.getElem?_modify, hL, Option.map_eq_map, Option.map_some, if_true, Option.bind_some, hLf, List.nil_append,
        List.getElem?_cons_zero, imBase, addNewSample, (isNanOrInf_false v).2 hv]
      simp [Res.bind]
  · simp [imLev, hl, Res.andThen, Res.bind] at hr

theorem imBegin_noThrow (hf : Calm f) {reset : Bool} {st : ImState XR M} (hF : reset = true ∨ st.base.totalIterations = 0)
    (hlen : st.base.samples.length = st.base.observations.length) (hdat : reset = false → DataInv st.base) : (imBegin P f afun reset st).NoThrow := by
  unfold imBegin
  have h0 := boInit_post (U := True) (V := False) (P := P.bo) (f := f) (reset := reset) (st := st.base) (fun _ _ _ => trivial) hlen
    (fun h _ => hdat h)
  have h1 := boInit_noThrow (P := P.bo) hf reset (st.base.push (.start reset))
  cases hb : boInit P.bo f reset (st.base.push (.start reset)) with
  | ub => exact .ub
  | diverge => exact .div
  | throw e b => exact absurd hb (h1 e b)
  | ok b =>
    rw [hb] at h0
    obtain ⟨-, -, htot, -, -⟩ := h0
    simp only [imBase, Res.bind, Res.andThen, if_pos (htot.2 hF)]
    refine imRoot_noThrow hf _ ?_
    intro L hL
    simp only [imNewTree, List.getElem?_replicate] at hL
    split at hL
    · cases hL; rfl
    · cases hL

end Limbo
