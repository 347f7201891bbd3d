import Verif.Spec.Regret
import Verif.Lemmas.BoTrace
import Verif.Props.GpParams
import Verif.Props.StatGp

/-! Helpers for C104: traces of honest evaluations, GPs whose hyper-parameters are never touched, repeated decisions. -/

namespace Limbo

section Honest

variable {α M : Type} [Scalar α]

/-- `H` is an event that is neither a call nor a point given by hand -/
def Event.notData : Event α M → Prop
  | .call _ _ => False
  | .given _ _ => False
  | _ => True

variable {P : BoParams α M} {afun : List α → α} {H : Event α M → Prop}

def AllEv (H : Event α M → Prop) (st : BoState α M) : Prop := ∀ e ∈ st.trace, H e

theorem AllEv.push {st : BoState α M} (h : AllEv H st) {e : Event α M} (he : H e) : AllEv H (st.push e) := by
  intro e' h'
  rcases List.mem_append.1 h' with h' | h'
  · exact h e' h'
  · rw [List.mem_singleton.1 h']; exact he

theorem evalAndAdd_allEv {f : StateFun α M} (hf : ∀ tr x, H (.call x (f.call tr x))) (x : List α) (st : BoState α M) (h : AllEv H st) :
    (evalAndAdd f x st).All (AllEv H) (AllEv H) := by
  have hc : AllEv H (st.push (.call x (f.call st.trace x))) := h.push (hf _ _)
  unfold evalAndAdd
  simp only
  split
  · exact hc
  · unfold addNewSample; split <;> exact hc

theorem evalAll_allEv {f : StateFun α M} (hf : ∀ tr x, H (.call x (f.call tr x))) (pts : List (List α)) : ∀ st : BoState α M, AllEv H st →
    (evalAll f pts st).All (AllEv H) (AllEv H) := by
  induction pts with
  | nil => intro st h; exact h
  | cons x xs ih => intro st h; exact (evalAndAdd_allEv hf x st h).andThen ih

theorem boIteration_allEv (hq : ∀ e : Event α M, e.notData → H e) {f : StateFun α M} (hf : ∀ tr x, H (.call x (f.call tr x))) (st : BoState α M)
    (h : AllEv H st) : (boIteration P f afun st).All (AllEv H) (AllEv H) := by
  have h0 : AllEv H (st.push (.acqui st.model st.currentIteration)) := h.push (hq _ trivial)
  unfold boIteration
  simp only
  split
  · trivial
  · exact h0
  · next x hx =>
    refine (evalAndAdd_allEv hf x _ h0).andThen fun s1 h1 => ?_
    refine Res.All.andThen (Q := AllEv H) (updateStats_all _ _ _ _ _ fun logs _ => h1.push (e := .stat s1.model) (hq _ trivial)) fun s2 h2 => ?_
    refine Res.All.andThen (Q := AllEv H) ?_ fun s3 h3 => ?_
    · unfold boModelAdd
      split
      · exact withModel_all _ _ _ _ (fun m _ => h2) (fun m => h2)
      · trivial
    · refine Res.All.andThen (Q := AllEv H) ?_ fun s4 h4 => (show AllEv H s4 from h4)
      unfold boHp
      split
      · exact withModel_all _ _ _ _ (fun m _ => h3.push (hq _ trivial)) (fun m => h3.push (hq _ trivial))
      · exact h3

theorem boLoop_allEv (hq : ∀ e : Event α M, e.notData → H e) {f : StateFun α M} (hf : ∀ tr x, H (.call x (f.call tr x))) :
    ∀ (fuel : Nat) (st : BoState α M), AllEv H st → (boLoop P f afun fuel st).All (AllEv H) (AllEv H) := by
  intro fuel
  induction fuel with
  | zero => intro st h; trivial
  | succ n ih =>
    intro st h
    have hstop : ∀ b st', boStop P afun st = some (b, st') → AllEv H st' := by
      intro b st' hs'
      obtain ⟨as, rfl, has⟩ := boStop_spec hs'
      intro e he
      rcases List.mem_append.1 he with he | he
      · exact h e he
      · obtain ⟨j, a, rfl⟩ := has e he; exact hq _ trivial
    unfold boLoop
    split
    · trivial
    · next st' hs' => exact hstop _ _ hs'
    · next st' hs' => exact (boIteration_allEv hq hf st' (hstop _ _ hs')).andThen ih

theorem optimize_allEv (hq : ∀ e : Event α M, e.notData → H e) {f : StateFun α M} (hf : ∀ tr x, H (.call x (f.call tr x))) (reset : Bool) (fuel : Nat)
    (st : BoState α M) (h : AllEv H st) : (optimize P f afun reset fuel st).All (AllEv H) (AllEv H) := by
  have hinit : AllEv H (initState reset st) := by
    have he : (initState reset st).trace = (st.push (.start reset)).trace := by cases reset <;> rfl
    unfold AllEv; rw [he]; exact h.push (hq _ trivial)
  unfold optimize
  refine Res.All.andThen (Q := AllEv H) ?_ ?_
  · rw [boInit_eq]
    split
    · split
      · exact evalAll_allEv hf _ _ hinit
      · trivial
    · exact hinit
  · intro s1 h1
    refine Res.All.andThen (Q := AllEv H) ?_ fun s2 h2 => boLoop_allEv hq hf fuel s2 h2
    unfold boModelInit
    split
    · exact h1
    · exact withModel_all _ _ _ _ (fun m _ => h1) (fun m => h1)

/-- the events of a history whose objectives and given points produce `H` -/
theorem runOps_allEv (hq : ∀ e : Event α M, e.notData → H e) (Good : BoOp α M → Prop)
    (h1 : ∀ f a r n, Good (.optimize f a r n) → ∀ tr x, H (.call x (f.call tr x)))
    (h2 : ∀ s v, Good (.addNewSample s v) → H (.given s v))
    (h3 : ∀ f y, Good (.evalAndAdd f y) → ∀ tr x, H (.call x (f.call tr x))) :
    ∀ (ops : List (BoOp α M)), (∀ o ∈ ops, Good o) → ∀ st st' : BoState α M, AllEv H st → runOps P ops st = some st' → AllEv H st' := by
  intro ops
  induction ops with
  | nil => intro _ st st' ht he; simp only [runOps, Option.some.injEq] at he; subst he; exact ht
  | cons o os ih =>
    intro ho st st' ht he
    have hone : (runOp P o st).All (AllEv H) (AllEv H) := by
      cases o with
      | optimize f a r n => exact optimize_allEv hq (h1 f a r n (ho _ (by simp))) r n st ht
      | addNewSample x v =>
        have := ht.push (h2 x v (ho _ (by simp)))
        simp only [runOp, addNewSample]
        split <;> exact this
      | evalAndAdd f x => exact evalAndAdd_allEv (h3 f x (ho _ (by simp))) x st ht
    have ih' := ih fun o h => ho o (by simp [h])
    simp only [runOps] at he
    cases hr : runOp P o st with
    | ok q => rw [hr] at hone he; exact ih' q st' hone he
    | throw e q => rw [hr] at hone he; exact ih' q st' hone he
    | ub => rw [hr] at he; cases he
    | diverge => rw [hr] at he; cases he

/-- every stored pair came from a call or was given -/
theorem mem_expectFrom {acc : List (List α × List α)} : ∀ {tr : List (Event α M)} {s v : List α}, (s, v) ∈ expectFrom acc tr →
    (s, v) ∈ acc ∨ Event.call s (.ret v) ∈ tr ∨ Event.given s v ∈ tr := by
  intro tr
  induction tr generalizing acc with
  | nil => intro s v h; exact Or.inl h
  | cons e es ih =>
    intro s v h
    rcases ih (acc := expectStep acc e) h with h1 | h1 | h1
    · have : (s, v) ∈ acc ∨ Event.call s (.ret v) = e ∨ Event.given s v = e := by
        unfold expectStep at h1
        split at h1
        · simp at h1
        · split at h1
          · rcases List.mem_append.1 h1 with h1 | h1
            · exact Or.inl h1
            · rw [List.mem_singleton, Prod.mk.injEq] at h1; rw [h1.1, h1.2]; exact Or.inr (Or.inl rfl)
          · exact Or.inl h1
        · split at h1
          · rcases List.mem_append.1 h1 with h1 | h1
            · exact Or.inl h1
            · rw [List.mem_singleton, Prod.mk.injEq] at h1; rw [h1.1, h1.2]; exact Or.inr (Or.inr rfl)
          · exact Or.inl h1
        · exact Or.inl h1
      rcases this with h | h | h
      · exact Or.inl h
      · exact Or.inr (Or.inl (by rw [h]; simp))
      · exact Or.inr (Or.inr (by rw [h]; simp))
    · exact Or.inr (Or.inl (List.mem_cons_of_mem _ h1))
    · exact Or.inr (Or.inr (List.mem_cons_of_mem _ h1))

theorem mem_expect {tr : List (Event α M)} {s v : List α} (h : (s, v) ∈ expect tr) : Event.call s (.ret v) ∈ tr ∨ Event.given s v ∈ tr := by
  rcases mem_expectFrom h with h | h
  · simp at h
  · exact h

open Classical in
/-- calls on `x` with finite results are stored -/
theorem count_expectFrom {x : List α} : ∀ {p : List (Event α M)} {acc : List (List α × List α)}, Event.start true ∉ p →
    (∀ r, Event.call x r ∈ p → ∃ v, r = .ret v ∧ v.all (fun y => isFinite y) = true) →
    (acc.map Prod.fst).count x + (callPts p).count x ≤ ((expectFrom acc p).map Prod.fst).count x := by
  intro p
  induction p with
  | nil => intro acc _ _; simp [callPts, expectFrom]
  | cons e es ih =>
    intro acc h1 h2
    have ih' := ih (acc := expectStep acc e) (fun h => h1 (by simp [h])) (fun r h => h2 r (by simp [h]))
    refine le_trans ?_ ih'
    have hmono : ∀ l : List (List α × List α), ∀ q, (l.map Prod.fst).count x ≤ ((l ++ [q]).map Prod.fst).count x := by
      intro l q; simp
    cases e with
    | start r =>
      cases r with
      | true => simp at h1
      | false => simp [expectStep, callPts]
    | call y r =>
      simp only [callPts, List.count_cons]
      by_cases hy : y = x
      · subst hy
        obtain ⟨v, rfl, hv⟩ := h2 r (by simp)
        simp only [expectStep, hv, if_true, List.map_append, List.count_append, List.map_cons, List.map_nil, List.count_cons, List.count_nil]
        omega
      · have : (y == x) = false := by simpa using hy
        rw [this]
        simp only [Bool.false_eq_true, if_false, add_zero]
        refine Nat.add_le_add_right ?_ _
        cases r with
        | ret v => simp only [expectStep]; split; exacts [hmono _ _, le_refl _]
        | threw => exact le_refl _
    | given s v =>
      simp only [callPts]
      refine Nat.add_le_add_right ?_ _
      simp only [expectStep]; split; exacts [hmono _ _, le_refl _]
    | asked k a => simp [expectStep, callPts]
    | acqui g it => simp [expectStep, callPts]
    | stat g => simp [expectStep, callPts]
    | hp g => simp [expectStep, callPts]

/-- the points evaluated right after an acquisition function was built -/
def decided : List (Event α M) → List (List α)
  | [] => []
  | .acqui _ _ :: .call x _ :: es => x :: decided es
  | _ :: es => decided es

theorem decided_length : ∀ (tr : List (Event α M)), (∀ p g it rest, tr = p ++ .acqui g it :: rest → ∃ x r post, rest = .call x r :: post) →
    (decided tr).length = acquiCount tr := by
  intro tr
  induction tr using decided.induct with
  | case1 => intro _; rfl
  | case2 g it x r es ih =>
    intro h
    simp only [decided, acquiCount, List.length_cons]
    rw [ih fun p g' it' rest he => h (.acqui g it :: .call x r :: p) g' it' rest (by simp [he])]
  | case3 e es hne ih =>
    intro h
    have ih' := ih fun p g' it' rest he => h (e :: p) g' it' rest (by simp [he])
    cases e with
    | acqui g it =>
      obtain ⟨x, r, post, rfl⟩ := h [] g it es rfl
      exact absurd rfl (hne g it x r post rfl)
    | start r => simpa [decided, acquiCount] using ih'
    | call y r => simpa [decided, acquiCount] using ih'
    | given s v => simpa [decided, acquiCount] using ih'
    | asked k a => simpa [decided, acquiCount] using ih'
    | stat g => simpa [decided, acquiCount] using ih'
    | hp g => simpa [decided, acquiCount] using ih'

open Classical in
/-- a point decided upon `n + 1` times was decided upon when it had been evaluated `n` times before -/
theorem decided_split (x : List α) : ∀ (tr : List (Event α M)) (n : Nat), n + 1 ≤ (decided tr).count x →
    ∃ p g it r q, tr = p ++ .acqui g it :: .call x r :: q ∧ n ≤ (callPts p).count x := by
  intro tr
  induction tr using decided.induct with
  | case1 => intro n h; simp [decided] at h
  | case2 g it y r es ih =>
    intro n h
    rw [decided, List.count_cons] at h
    by_cases hy : y = x
    · subst hy
      simp only [beq_self_eq_true, if_true] at h
      cases n with
      | zero => exact ⟨[], g, it, r, es, rfl, Nat.zero_le _⟩
      | succ n =>
        obtain ⟨p, g', it', r', q, rfl, hc⟩ := ih n (by omega)
        exact ⟨.acqui g it :: .call y r :: p, g', it', r', q, rfl, by simp [callPts]; omega⟩
    · have : (y == x) = false := by simpa using hy
      rw [this] at h
      simp only [Bool.false_eq_true, if_false, add_zero] at h
      obtain ⟨p, g', it', r', q, rfl, hc⟩ := ih n h
      exact ⟨.acqui g it :: .call y r :: p, g', it', r', q, rfl, by simp only [callPts, List.count_cons]; omega⟩
  | case3 e es hne ih =>
    intro n h
    have hd : decided (e :: es) = decided es := by
      cases e with
      | acqui g it =>
        cases es with
        | nil => rfl
        | cons e' es' =>
          cases e' with
          | call y r => exact absurd rfl (hne g it y r es' rfl)
          | _ => rfl
      | _ => rfl
    rw [hd] at h
    obtain ⟨p, g', it', r', q, rfl, hc⟩ := ih n h
    refine ⟨e :: p, g', it', r', q, rfl, hc.trans ?_⟩
    cases e with
    | call y r => simp [callPts, List.count_cons]
    | _ => simp [callPts]

theorem count_inst {β : Type} (i1 i2 : BEq β) [@LawfulBEq β i1] [@LawfulBEq β i2] (x : β) (l : List β) : @List.count β i1 x l = @List.count β i2 x l := by
  induction l with
  | nil => rfl
  | cons y ys ih =>
    by_cases h : y = x
    · subst h
      rw [@List.count_cons_self β i1, @List.count_cons_self β i2, ih]
    · rw [@List.count_cons_of_ne β i1 _ _ _ h, @List.count_cons_of_ne β i2 _ _ _ h, ih]

open Classical in
/-- pigeonhole -/
theorem exists_count_of_length {β : Type} (l : List β) (G : Finset β) (h : ∀ x ∈ l, x ∈ G) (n : Nat) (hn : n * G.card < l.length) :
    ∃ x ∈ G, n + 1 ≤ l.count x := by
  by_contra hcon
  push Not at hcon
  have h1 : ∑ a ∈ G, (l : Multiset β).count a = (l : Multiset β).card := Multiset.sum_count_eq_card fun a ha => h a (by simpa using ha)
  have h2 : ∑ a ∈ G, (l : Multiset β).count a ≤ ∑ _a ∈ G, n := Finset.sum_le_sum fun a ha => by
    have := hcon a ha
    rw [Multiset.coe_count]; omega
  rw [h1, Finset.sum_const, smul_eq_mul, Multiset.coe_card] at h2
  rw [mul_comm] at h2
  omega

/-- the operations differ in `optHp` only -/
theorem boHp_irrelevant {P : BoParams α M} (hh : P.hpPeriod ≤ 0) (o : M → Res M) :
    boHp { P with ops := { P.ops with optHp := o } } = boHp P := by
  funext st
  unfold boHp
  rw [if_neg (by simp only; omega), if_neg (by omega)]

theorem boLoop_irrelevant {P : BoParams α M} (hh : P.hpPeriod ≤ 0) (o : M → Res M) (f : StateFun α M) (afun : List α → α) (fuel : Nat) :
    boLoop { P with ops := { P.ops with optHp := o } } f afun fuel = boLoop P f afun fuel := by
  induction fuel with
  | zero => rfl
  | succ n ih =>
    funext st
    have hi : boIteration { P with ops := { P.ops with optHp := o } } f afun = boIteration P f afun := by
      funext st
      unfold boIteration
      rw [boHp_irrelevant hh o]
      rfl
    rw [boLoop, boLoop, hi, ih]
    rfl

theorem runOp_irrelevant {P : BoParams α M} (hh : P.hpPeriod ≤ 0) (o : M → Res M) (op : BoOp α M) (st : BoState α M) :
    runOp { P with ops := { P.ops with optHp := o } } op st = runOp P op st := by
  cases op with
  | optimize f afun reset fuel =>
    simp only [runOp, optimize, boLoop_irrelevant hh o]
    rfl
  | addNewSample s v => rfl
  | evalAndAdd f x => rfl

theorem runOps_irrelevant {P : BoParams α M} (hh : P.hpPeriod ≤ 0) (o : M → Res M) (ops : List (BoOp α M)) : ∀ st : BoState α M,
    runOps { P with ops := { P.ops with optHp := o } } ops st = runOps P ops st := by
  induction ops with
  | nil => intro st; rfl
  | cons op ops ih =>
    intro st
    simp only [runOps, runOp_irrelevant hh o]
    cases runOp P op st <;> simp [ih]

end Honest

section Fixed

open Gp

variable {E : GpEnv}

/-- the data, and the functors a GP of these dimensions is built with -/
def FixRel (g : GpState E) (d : List (List XR × List XR)) : Prop :=
  GpRel g d ∧ (g.dimIn = -1 ∨ g.kf = BaseK.mk' E.KP g.dimIn.toNat) ∧ (g.dimOut = -1 ∨ g.mf = E.M.new g.dimOut.toNat)

theorem adaptDims_fixed {g : GpState E} (h : (g.dimIn = -1 ∨ g.kf = BaseK.mk' E.KP g.dimIn.toNat) ∧ (g.dimOut = -1 ∨ g.mf = E.M.new g.dimOut.toNat))
    (a b : Nat) : (adaptDims g a b).kf = BaseK.mk' E.KP a ∧ (adaptDims g a b).mf = E.M.new b := by
  obtain ⟨h1, h2⟩ := h
  have e1 : g.dimIn = a → g.kf = BaseK.mk' E.KP a := by
    intro he
    rcases h1 with h1 | h1
    · omega
    · rw [h1, he]; rfl
  have e2 : g.dimOut = b → g.mf = E.M.new b := by
    intro he
    rcases h2 with h2 | h2
    · omega
    · rw [h2, he]; rfl
  unfold adaptDims
  by_cases g1 : g.dimIn = a <;> by_cases g2 : g.dimOut = b <;> simp [g1, g2, e1, e2]

theorem gpOps_fixed (u : Nat → Nat → ℝ × ℝ) (junkC : List (List ℝ) → List (List ℝ) → GpState E → Nat → Nat → ℝ)
    (junkA : List ℝ → List ℝ → GpState E → Nat → Nat → ℝ) : LawfulRel (gpOps E u junkC junkA .none) FixRel where
  fresh i o := ⟨(gpOps_lawful u junkC junkA .none).fresh i o, Or.inr rfl, Or.inr rfl⟩
  compute s v m d m' hR hl h := by
    refine ⟨(gpOps_lawful u junkC junkA .none).compute s v m d m' hR.1 hl h, ?_⟩
    have h := gpRes_ok h
    rw [Option.bind_eq_some_iff] at h
    obtain ⟨xs', h1, h⟩ := h
    rw [Option.bind_eq_some_iff] at h
    obtain ⟨ys', h2, h⟩ := h
    obtain ⟨k1, k2, k3, k4, -⟩ := (compute_functors h).1
    obtain ⟨a1, a2, -⟩ := adaptDims_dims m (xs'.headD []).length (ys'.headD []).length
    obtain ⟨b1, b2⟩ := adaptDims_fixed hR.2 (xs'.headD []).length (ys'.headD []).length
    exact ⟨Or.inr (by rw [k1, k3]; simp only; rw [b1, a1]; rfl), Or.inr (by rw [k2, k4]; simp only; rw [b2, a2]; rfl)⟩
  addSample s v m d m' hR h := by
    refine ⟨(gpOps_lawful u junkC junkA .none).addSample s v m d m' hR.1 h, ?_⟩
    have h := gpRes_ok h
    rw [Option.bind_eq_some_iff] at h
    obtain ⟨x, h1, h⟩ := h
    rw [Option.bind_eq_some_iff] at h
    obtain ⟨y, h2, h⟩ := h
    obtain ⟨k1, k2, k3, k4, -⟩ := add_functors h
    obtain ⟨a1, a2, -⟩ := adaptDims_dims m x.length y.length
    obtain ⟨b1, b2⟩ := adaptDims_fixed hR.2 x.length y.length
    rw [k1, k2, k3, k4]
    by_cases hs : m.samples = []
    · simp only [hs, if_true]
      exact ⟨Or.inr (by rw [b1, a1]; rfl), Or.inr (by rw [b2, a2]; rfl)⟩
    · simp only [hs, if_false]
      exact hR.2
  optHp m d m' _ h := by cases h
  computeThrow s v m d e m' _ h := by
    simp only [gpOps, boGpCompute, gpRes] at h
    split at h <;> cases h
  addThrow s v m d e m' _ h := by
    simp only [gpOps, boGpAdd, gpRes] at h
    split at h <;> cases h
  hpThrow m d e m' _ h := by cases h

end Fixed

end Limbo
