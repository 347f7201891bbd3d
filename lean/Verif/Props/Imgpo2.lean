import Verif.Lemmas.Imgpo12
import Verif.Props.Imgpo

/-! C108: what a pass of IMGPO achieves, and how a run ends. -/

namespace Limbo

variable {M : Type}

/-- **C108**: in every pass that ends normally, a leaf of highest value is split: it is not a leaf any more, and its middle third, one level deeper, is a leaf with the
same stored value.  The only exception: the pass made an evaluation whose first component reaches that value. -/
theorem C108_best_leaf_split (P : ImParams XR M) (f : StateFun XR M) (afun : List XR → XR) (reset : Bool) (st : ImState XR M) (hd : 0 < f.dimIn)
    (hE : ∀ m n x, AllFinite (P.est m n x)) (hA : ∀ v, AllFinite v → lt negInf (afun v) = true)
    (hF : reset = true ∨ st.base.totalIterations = 0 ∧ DataInv st.base) (hlen : st.base.samples.length = st.base.observations.length)
    (n : Nat) (s s' : ImState XR M) (b : BoState XR M) (hh : ImHead P f afun reset st n s) (hs : boStop P.bo afun s.base = some (false, b))
    (hp : imPass P f afun { s with base := b } = .ok s') :
    ∃ (h i : Nat) (v : List XR) (new : List (List XR)), BestLeaf afun s.tree h i (afun v) ∧ s'.base.observations = s.base.observations ++ new ∧
      ((¬ LeafAt s'.tree h i ∧ ∃ (i' : Nat) (L : Lev XR), s'.tree[h + 1]? = some L ∧ L.leaf[i']? = some true ∧ L.f[i']? = some v) ∨
       ∃ y ys, y :: ys ∈ new ∧ le (afun v) y = true) := by
  obtain ⟨pre, I⟩ := hh.inv hd hE hA (hF.imp id fun h => h.1) hlen (fun h => (hF.resolve_left (by simp [h])).2)
  have I' := I.stop hs
  obtain ⟨h, i, v, new, e, h1, -, h2, -, -, h3, -⟩ := imPass_best hE hA I'.aligned I'.tk hp
  obtain ⟨as, rfl, -⟩ := boStop_spec hs
  refine ⟨h, i, v, new, h1, h2, ?_⟩
  rcases h3 with ⟨h3, i', p, h4, h5, h6⟩ | ⟨w, hw, hne, hle⟩
  · left
    rw [List.getElem?_map, Option.map_eq_some_iff] at h4
    obtain ⟨L, h4, rfl⟩ := h4
    exact ⟨fun hq => h3 ((leafAt_iff _ _ _).1 hq), i', L, h4, h5, h6⟩
  · right
    cases w with
    | nil => exact absurd rfl hne
    | cons y ys => exact ⟨y, ys, hw, hle⟩

/-- **C108**: every pass that ends normally refines the partition: it adds at least two leaves. -/
theorem C108_every_pass_refines (P : ImParams XR M) (f : StateFun XR M) (afun : List XR → XR) (reset : Bool) (st : ImState XR M) (hd : 0 < f.dimIn)
    (hE : ∀ m n x, AllFinite (P.est m n x)) (hA : ∀ v, AllFinite v → lt negInf (afun v) = true)
    (hF : reset = true ∨ st.base.totalIterations = 0 ∧ DataInv st.base) (hlen : st.base.samples.length = st.base.observations.length)
    (n : Nat) (s s' : ImState XR M) (b : BoState XR M) (hh : ImHead P f afun reset st n s) (hs : boStop P.bo afun s.base = some (false, b))
    (hp : imPass P f afun { s with base := b } = .ok s') : leafCount s.tree + 2 ≤ leafCount s'.tree := by
  obtain ⟨pre, I⟩ := hh.inv hd hE hA (hF.imp id fun h => h.1) hlen (fun h => (hF.resolve_left (by simp [h])).2)
  have I' := I.stop hs
  obtain ⟨h, i, v, new, e, -, -, -, -, -, -, h4, h5, -⟩ := imPass_best hE hA I'.aligned I'.tk hp
  rw [leafCount_eq, leafCount_eq, h5]
  simp only
  omega

/-- **C108**: after `n` passes at most `1 + 3 n (n + 1) / 2` evaluations were made besides those of the initialiser, and no cell is deeper than `n`. -/
theorem C108_evaluations (P : ImParams XR M) (f : StateFun XR M) (afun : List XR → XR) (reset : Bool) (st : ImState XR M) (hd : 0 < f.dimIn)
    (hE : ∀ m n x, AllFinite (P.est m n x)) (hA : ∀ v, AllFinite v → lt negInf (afun v) = true)
    (hF : reset = true ∨ st.base.totalIterations = 0 ∧ DataInv st.base) (hlen : st.base.samples.length = st.base.observations.length)
    (n : Nat) (s : ImState XR M) (hh : ImHead P f afun reset st n s) :
    2 * s.base.currentIteration ≤ 2 + 3 * n * (n + 1) ∧ ∀ (h : Nat) (L : Lev XR), n < h → s.tree[h]? = some L → L.x = [] := by
  have hF' := hF.imp id fun h => h.1
  have hD : reset = false → DataInv st.base := fun h => (hF.resolve_left (by simp [h])).2
  constructor
  · induction hh with
    | @start s h0 =>
      have hb := imBegin_post (P := P) (f := f) (afun := afun) hF' hlen hD
      unfold imBegin at h0
      obtain ⟨s1, e1, h0⟩ := Res.andThen_ok h0
      obtain ⟨b, e2, rfl⟩ := imBase_ok e1
      have hi := boInit_post (U := True) (V := False) (P := P.bo) (f := f) (reset := reset) (st := st.base) (fun _ _ _ => trivial) hlen (fun h _ => hD h)
      rw [e2] at hi
      obtain ⟨-, hcur, htot, -⟩ := hi
      simp only [if_pos (htot.2 hF')] at h0
      obtain ⟨v, -, -, -, -, -, h6⟩ := imRoot_ok rfl h0
      rw [h6]; simp only; rw [hcur]; norm_num
    | @pass n s b s' hh hs hr ih =>
      obtain ⟨pre, I⟩ := hh.inv hd hE hA hF' hlen hD
      have I' := I.stop hs
      obtain ⟨h, i, v, new, e, -, -, -, h2, h3, -⟩ := imPass_best hE hA I'.aligned I'.tk hr
      obtain ⟨as, rfl, -⟩ := boStop_spec hs
      rw [h3]
      have hdep := I.dep
      simp only at h2 ⊢
      have hl : (new.length : Int) ≤ 3 * (n + 1) := by
        have : new.length ≤ 3 * (n + 1) := by omega
        exact_mod_cast this
      push_cast
      nlinarith
  · obtain ⟨pre, I⟩ := hh.inv hd hE hA hF' hlen hD
    intro h L hn hL
    have := I.tk.deep h (fkey L) (by have := I.dep; omega) (by rw [List.getElem?_map, hL]; rfl)
    simp only [fkey] at this
    have hl := (I.aligned h L hL).1
    rw [this] at hl
    exact List.length_eq_zero_iff.1 hl.symm

/-- **C108**: whatever the stopping criteria, `optimize` ends: it returns, throws or leaves the range of defined behaviour, but it does not run for ever. -/
theorem C108_ends (P : ImParams XR M) (f : StateFun XR M) (afun : List XR → XR) (reset : Bool) (st : ImState XR M) (hd : 0 < f.dimIn)
    (hE : ∀ m n x, AllFinite (P.est m n x)) (hA : ∀ v, AllFinite v → lt negInf (afun v) = true)
    (hF : reset = true ∨ st.base.totalIterations = 0 ∧ DataInv st.base) (hlen : st.base.samples.length = st.base.observations.length)
    (hC : ∀ xs ys m, P.bo.ops.compute xs ys m ≠ .diverge) (hO : ∀ m, P.bo.ops.optHp m ≠ .diverge) (fuel : Nat) (hfuel : 3 ^ 999 ≤ 2 * fuel) :
    imOptimize P f afun reset fuel st ≠ .diverge := by
  rw [imOptimize_begin]
  have hb := imBegin_post (P := P) (f := f) (afun := afun) (hF.imp id fun h => h.1) hlen (fun h => (hF.resolve_left (by simp [h])).2)
  cases hs : imBegin P f afun reset st with
  | ub => simp [Res.andThen, Res.bind]
  | throw e s => simp [Res.andThen, Res.bind]
  | diverge => rw [hs] at hb; exact hb.elim
  | ok s =>
    rw [hs] at hb
    obtain ⟨pre, I⟩ := hb
    have hl := imLoop_ends hd hE hA hC fuel 0 s I (by
      revert hfuel
      generalize (3 : Nat) ^ 999 = w
      omega)
    have hok : ∀ k : ImState XR M → Res (ImState XR M), (Res.ok s).andThen k = k s := fun _ => rfl
    rw [hok]
    cases hq : imLoop P f afun fuel s with
    | ub => simp [Res.andThen, Res.bind]
    | throw e s => simp [Res.andThen, Res.bind]
    | diverge => exact absurd hq hl
    | ok s' =>
      simp only [Res.andThen, Res.bind]
      split
      · unfold imBase withModel
        cases ho : P.bo.ops.optHp s'.base.model with
        | ub => simp [Res.bind]
        | throw e s => simp [Res.bind]
        | diverge => exact absurd ho (hO _)
        | ok m => simp [Res.bind]
      · simp

private theorem loop_not_ok {P : ImParams XR M} {f : StateFun XR M} {afun : List XR → XR} (hs : ∀ b r b', boStop P.bo afun b = some (r, b') → r = false) :
    ∀ (fuel : Nat) (s s' : ImState XR M), imLoop P f afun fuel s ≠ .ok s' := by
  intro fuel
  induction fuel with
  | zero => intro s s'; simp [imLoop]
  | succ n ih =>
    intro s s' h
    unfold imLoop at h
    split at h
    · obtain ⟨s1, -, h⟩ := Res.andThen_ok h
      exact ih _ _ h
    · split at h
      · cases h
      · next b hb => cases hs _ _ _ hb
      · obtain ⟨s1, -, h⟩ := Res.andThen_ok h
        exact ih _ _ h

/-- **C108, negative**: if the stopping criteria never say stop (for example there are none), `optimize` always ends in undefined behaviour (the tree has room for
1000 levels only), even if the objective always returns finite numbers and the model never fails. -/
theorem C108_unstopped_run_is_undefined (P : ImParams XR M) (f : StateFun XR M) (afun : List XR → XR) (reset : Bool) (st : ImState XR M) (hd : 0 < f.dimIn)
    (hE : ∀ m n x, AllFinite (P.est m n x)) (hA : ∀ v, AllFinite v → lt negInf (afun v) = true)
    (hF : reset = true ∨ st.base.totalIterations = 0 ∧ DataInv st.base) (hlen : st.base.samples.length = st.base.observations.length)
    (hC : ∀ xs ys m, ∃ m', P.bo.ops.compute xs ys m = .ok m') (hf : ∀ tr x, ∃ v, f.call tr x = .ret v ∧ AllFinite v)
    (hs : ∀ b r b', boStop P.bo afun b = some (r, b') → r = false) (fuel : Nat) (hfuel : 3 ^ 999 ≤ 2 * fuel) :
    imOptimize P f afun reset fuel st = .ub := by
  have hF' := hF.imp id fun h => h.1
  have hD : reset = false → DataInv st.base := fun h => (hF.resolve_left (by simp [h])).2
  rw [imOptimize_begin]
  have hb := imBegin_post (P := P) (f := f) (afun := afun) hF' hlen hD
  have hbt := imBegin_noThrow (P := P) (f := f) (afun := afun) hf hF' hlen hD
  have hC1 : ∀ xs ys m, P.bo.ops.compute xs ys m ≠ .diverge := by
    intro xs ys m h; obtain ⟨m', h'⟩ := hC xs ys m; rw [h] at h'; cases h'
  have hC2 : ∀ xs ys m, (P.bo.ops.compute xs ys m).NoThrow := by
    intro xs ys m e s h; obtain ⟨m', h'⟩ := hC xs ys m; rw [h] at h'; cases h'
  cases hsb : imBegin P f afun reset st with
  | ub => rfl
  | throw e s => exact absurd hsb (hbt e s)
  | diverge => rw [hsb] at hb; exact hb.elim
  | ok s =>
    rw [hsb] at hb
    obtain ⟨pre, I⟩ := hb
    have hl := imLoop_ends hd hE hA hC1 fuel 0 s I (by
      revert hfuel
      generalize (3 : Nat) ^ 999 = w
      omega)
    have hok : ∀ k : ImState XR M → Res (ImState XR M), (Res.ok s).andThen k = k s := fun _ => rfl
    rw [hok]
    cases hq : imLoop P f afun fuel s with
    | ub => rfl
    | throw e s' => exact absurd hq (imLoop_noThrow hf hC2 fuel s e s')
    | diverge => exact absurd hq hl
    | ok s' => exact absurd hq (loop_not_ok hs fuel s s')

/-! ## The hypotheses hold -/

private theorem exIm_est (n : Int) : ∀ m k x, AllFinite ((exImP n).est m k x) := by
  intro m k x y hy
  have : y ∈ [XR.fin 0] := hy
  rw [List.mem_singleton] at this
  subst this; exact ⟨rfl, rfl⟩

private theorem exIm_afun : ∀ v, AllFinite v → lt negInf (exImA v) = true := fun _ _ => rfl

set_option maxRecDepth 8000 in
/-- A run with one whole pass reaches two heads of the main loop; the pass between them satisfies the hypotheses of the first two theorems. -/
example : ∃ s b s', ImHead (exImP 2) exImF exImA true (newIm 0 ()) 0 s ∧ boStop (exImP 2).bo exImA s.base = some (false, b) ∧
    imPass (exImP 2) exImF exImA { s with base := b } = .ok s' ∧ leafCount s.tree + 2 ≤ leafCount s'.tree := by
  obtain ⟨st', h, -, -⟩ := exIm_run
  rw [imOptimize_begin] at h
  obtain ⟨s, h1, h⟩ := Res.andThen_ok h
  obtain ⟨s2, h2, h⟩ := Res.andThen_ok h
  obtain ⟨pre, I⟩ : ∃ pre, HeadI exImF.dimIn True pre 0 s := by
    have := imBegin_post (P := exImP 2) (f := exImF) (afun := exImA) (reset := true) (st := newIm 0 ()) (Or.inl rfl) rfl (by simp)
    rw [h1] at this; exact this
  unfold imLoop at h2
  have hne : ¬ (s.base.samples.length = 0) := by
    rw [I.l.b.len]; intro e; exact I.l.b.ne (List.length_eq_zero_iff.1 e)
  rw [if_neg hne] at h2
  cases hst : boStop (exImP 2).bo exImA s.base with
  | none => rw [hst] at h2; cases h2
  | some r =>
    obtain ⟨t, b⟩ := r
    rw [hst] at h2
    cases t with
    | true =>
      exfalso
      have hc : s.base.currentIteration ≤ 1 := by
        have := (C108_evaluations (exImP 2) exImF exImA true (newIm 0 ()) (by simp [exImF]) (exIm_est 2) exIm_afun (Or.inl rfl) rfl 0 s (.start h1)).1
        norm_num at this; omega
      unfold boStop at hst
      simp only [exImP, chainCriteria, Bool.false_eq_true, if_false, maxIterations] at hst
      simp at hst
      omega
    | false =>
      simp only at h2
      obtain ⟨s3, h3, -⟩ := Res.andThen_ok h2
      exact ⟨s, b, s3, .start h1, hst, h3, C108_every_pass_refines (exImP 2) exImF exImA true (newIm 0 ()) (by simp [exImF]) (exIm_est 2) exIm_afun (Or.inl rfl) rfl 0 s s3 b
        (.start h1) hst h3⟩

/-- the same instance without any stopping criterion -/
noncomputable def exImNoStop : ImParams XR Unit := { exImP 0 with bo := { (exImP 0).bo with stop := [] } }

set_option maxRecDepth 8000 in
/-- The hypotheses of `C108_ends` and `C108_unstopped_run_is_undefined` hold for a run without stopping criteria. -/
example (fuel : Nat) (hfuel : 3 ^ 999 ≤ 2 * fuel) : imOptimize exImNoStop exImF exImA true fuel (newIm 0 ()) = .ub := by
  refine C108_unstopped_run_is_undefined exImNoStop exImF exImA true (newIm 0 ()) (Nat.succ_pos 0) (exIm_est 0) exIm_afun (Or.inl rfl) rfl ?_ ?_ ?_ fuel hfuel
  · intro xs ys m; exact ⟨(), rfl⟩
  · intro tr x
    refine ⟨_, rfl, ?_⟩
    intro y hy
    rw [List.mem_singleton] at hy
    subst hy; exact ⟨rfl, rfl⟩
  · intro b r b' h
    have h' : some (false, { b with trace := b.trace }) = some (r, b') := h
    simp only [Option.some.injEq, Prod.mk.injEq] at h'
    exact h'.1.symm

end Limbo
