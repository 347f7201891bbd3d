import Verif.Lemmas.Imgpo10

/-! The main loop of IMGPO: its heads, and that it ends. -/

namespace Limbo

variable {M : Type}

theorem kraftK_empty (n : Nat) : kraftK (List.replicate n ([], [])) = 0 := by
  induction n with
  | zero => rfl
  | succ n ih => rw [List.replicate_succ, kraftK, ih]; simp

theorem leafK_empty (n : Nat) : leafK (List.replicate n ([], [])) = 0 := by
  induction n with
  | zero => rfl
  | succ n ih => rw [List.replicate_succ]; simp only [leafK, List.map_cons, List.sum_cons] at ih ⊢; rw [ih]; rfl

/-- the tree right after the root cell was added -/
def rootK (v : List XR) : KT := (List.replicate 1000 ([], [])).modify 0 fun p => (p.1 ++ [v], p.2 ++ [true])

theorem rootK_get (v : List XR) (h : Nat) (p : List (List XR) × List Bool) (hp : (rootK v)[h]? = some p) : (h = 0 ∧ p = ([v], [true])) ∨ (0 < h ∧ p = ([], [])) := by
  unfold rootK at hp
  rw [List.getElem?_modify, List.getElem?_replicate] at hp
  by_cases hh : h < 1000
  · rw [if_pos hh] at hp
    by_cases h0 : 0 = h
    · subst h0; left; simp at hp; exact ⟨rfl, hp.symm⟩
    · right
      simp only [if_neg h0, Option.map_eq_map, Option.map_some, Option.some.injEq] at hp
      exact ⟨by omega, hp.symm⟩
  · rw [if_neg hh] at hp; simp at hp

theorem rootK_length (v : List XR) : (rootK v).length = 1000 := by
  unfold rootK
  rw [List.length_modify, List.length_replicate]

set_option maxRecDepth 8000 in
theorem rootK_tk {v : List XR} (hv : AllFinite v) : TK (rootK v) 0 ∧ leafK (rootK v) = 1 := by
  have hg : (List.replicate 1000 (([], []) : List (List XR) × List Bool))[0]? = some ([], []) := by rw [List.getElem?_replicate]; simp
  have a := leafK_modify (fun p => (p.1 ++ [v], p.2 ++ [true])) hg
  have b := kraftK_modify (fun p => (p.1 ++ [v], p.2 ++ [true])) hg
  rw [leafK_empty] at a
  rw [kraftK_empty] at b
  refine ⟨⟨?_, ?_, ?_, ?_⟩, ?_⟩
  · intro p hp w hw
    obtain ⟨k, hk⟩ := List.getElem?_of_mem hp
    rcases rootK_get v k p hk with ⟨-, rfl⟩ | ⟨-, rfl⟩
    · simp at hw; subst hw; exact hv
    · simp at hw
  · intro h p hh hp
    rcases rootK_get v h p hp with ⟨h0, -⟩ | ⟨-, rfl⟩
    · omega
    · rfl
  · rw [rootK_length]
    unfold rootK
    rw [List.length_replicate] at b
    rw [show List.count true (([], []) : List (List XR) × List Bool).2 = 0 from rfl,
      show List.count true ((([], []) : List (List XR) × List Bool).2 ++ [true]) = 1 from rfl, zero_mul, one_mul, add_zero, zero_add] at b
    exact b
  · intro p hp
    obtain ⟨k, hk⟩ := List.getElem?_of_mem hp
    rcases rootK_get v k p hk with ⟨-, rfl⟩ | ⟨-, rfl⟩ <;> rfl
  · unfold rootK
    change _ + 0 = 0 + 1 at a
    rw [add_zero, zero_add] at a
    exact a

theorem imRoot_ok {f : StateFun XR M} {afun : List XR → XR} {st st' : ImState XR M} (ht : st.tree = imNewTree) (hr : imRoot f afun st = .ok st') :
    ∃ v, AllFinite v ∧ f.call st.base.trace (List.replicate f.dimIn (lit 1 * lit (1 / 2))) = .ret v ∧ st'.tree.map fkey = rootK v ∧ st'.depth = 0 ∧
      st'.base.trace = st.base.trace ++ [.call (List.replicate f.dimIn (lit 1 * lit (1 / 2))) (.ret v)] ∧
      st'.base.currentIteration = st.base.currentIteration + 1 := by
  unfold imRoot at hr
  obtain ⟨s1, e1, hr⟩ := Res.andThen_ok hr
  obtain ⟨hl, rfl⟩ := imLev_ok e1
  have h0 : st.tree[0]? = some ⟨[], [], [], [], [], []⟩ := by rw [ht]; unfold imNewTree; rw [List.getElem?_replicate]; simp
  simp only [List.getElem?_modify, h0] at hr
  simp only [if_true, Option.map_some, Option.bind_some, List.nil_append, List.getElem?_cons_zero, Option.map_eq_map] at hr
  cases hc : f.call st.base.trace (List.replicate f.dimIn (lit 1 * lit (1 / 2))) with
  | threw => rw [hc] at hr; simp at hr
  | ret v =>
    rw [hc] at hr
    simp only at hr
    obtain ⟨s2, e2, hr⟩ := Res.andThen_ok hr
    obtain ⟨-, rfl⟩ := imLev_ok e2
    simp only [List.getElem?_modify, h0] at hr
    simp only [if_true, Option.map_some, Option.bind_some, List.nil_append, List.getElem?_cons_zero, Option.map_eq_map] at hr
    obtain ⟨s3, e3, hr⟩ := Res.andThen_ok hr
    obtain ⟨b, e4, rfl⟩ := imBase_ok e3
    obtain ⟨hv, rfl⟩ := addNewSample_ok' e4
    simp only [Res.ok.injEq] at hr
    subst hr
    refine ⟨v, hv, rfl, ?_, rfl, rfl, rfl⟩
    simp only [imTick]
    refine (fkey_modify (g' := fun p => (p.1 ++ [v], p.2 ++ [true])) fun L => rfl).trans ?_
    unfold rootK
    refine congrArg (fun K => List.modify K 0 _) ?_
    refine Eq.trans (fkey_modify_id ?_) ?_
    · intro L; rfl
    · rw [ht]; unfold imNewTree; rw [List.map_replicate]; rfl

/-- what holds at a head of the loop; `F` = the run is not a resumed one -/
structure HeadI (d : Nat) (F : Prop) (pre : List (List XR)) (n : Nat) (s : ImState XR M) : Prop where
  l : ImL d F pre 1000 s
  tk : TK (s.tree.map fkey) s.depth
  dep : s.depth ≤ n
  cnt : 1 + 2 * n ≤ leafK (s.tree.map fkey)

set_option maxRecDepth 8000 in
theorem imBegin_post {P : ImParams XR M} {f : StateFun XR M} {afun : List XR → XR} {reset : Bool} {st : ImState XR M}
    (hF : reset = true ∨ st.base.totalIterations = 0) (hlen : st.base.samples.length = st.base.observations.length)
    (hdat : reset = false → DataInv st.base) :
    (imBegin P f afun reset st).Post True False (fun s => ∃ pre, HeadI f.dimIn True pre 0 s) (fun _ => True) := by
  unfold imBegin
  have h0 := boInit_post (U := True) (V := False) (P := P.bo) (f := f) (reset := reset) (st := st.base) (fun _ _ _ => trivial) hlen
    (fun h _ => hdat h)
  simp only [imBase]
  cases hb : boInit P.bo f reset (st.base.push (.start reset)) with
  | ub => trivial
  | diverge => rw [hb] at h0; exact h0
  | throw e b => trivial
  | ok b =>
    rw [hb] at h0
    obtain ⟨⟨inits, c1, c2, c3⟩, hcur, htot, hbl, hbd⟩ := h0
    simp only [Res.bind, Res.andThen, if_pos (htot.2 hF)]
    have hemp : ∀ (h : Nat) (L : Lev XR), (imNewTree : List (Lev XR))[h]? = some L → L = ⟨[], [], [], [], [], []⟩ := by
      intro h L hL
      unfold imNewTree at hL
      rw [List.getElem?_replicate] at hL
      split at hL
      · exact (Option.some.inj hL).symm
      · cases hL
    have hNl : (imNewTree : List (Lev XR)).length = 1000 := by simp only [imNewTree, List.length_replicate]
    obtain ⟨T, hT⟩ : ∃ T : List (Lev XR), T = imNewTree := ⟨_, rfl⟩
    rw [← hT] at hemp hNl ⊢
    have hroot := imRoot_post (U := True) (V := False) (fresh := True) (pre := callPts st.base.trace ++ inits) (N := 1000) (f := f) afun
      { st with base := { b with model := P.bo.ops.fresh f.dimIn f.dimOut }, tree := T } (by omega)
      hNl
      (by intro h L hL; rw [hemp h L hL]; exact ⟨rfl, rfl, rfl, rfl, rfl, by intro i hi; simp at hi⟩) (fun _ => hemp)
      ⟨⟨[], by simpa using c1, by simp, by simpa using hcur⟩, fun _ => (hbd hF).of_eq rfl rfl rfl, hbl⟩
    cases hr : imRoot f afun { st with base := { b with model := P.bo.ops.fresh f.dimIn f.dimOut }, tree := T } with
    | ub => trivial
    | diverge => rw [hr] at hroot; exact hroot
    | throw e s => trivial
    | ok s =>
      rw [hr] at hroot
      obtain ⟨v, hv, -, hk, hd, -, -⟩ := imRoot_ok hT hr
      have := rootK_tk hv
      exact ⟨_, hroot.1, by rw [hk, hd]; exact this.1, by omega, by rw [hk, this.2]⟩

theorem HeadI.aligned {d n : Nat} {F : Prop} {pre : List (List XR)} {s : ImState XR M} (I : HeadI d F pre n s) :
    ∀ (k : Nat) (L : Lev XR), s.tree[k]? = some L → L.leaf.length = L.x.length ∧ L.f.length = L.x.length :=
  fun k L hL => ⟨(I.l.lev k L hL).lleaf, (I.l.lev k L hL).lf⟩

theorem HeadI.stop {d n : Nat} {F : Prop} {pre : List (List XR)} {s : ImState XR M} {P : BoParams XR M} {afun : List XR → XR} {r : Bool} {b : BoState XR M}
    (I : HeadI d F pre n s) (hs : boStop P afun s.base = some (r, b)) : HeadI d F pre n { s with base := b } :=
  ⟨⟨I.l.lev, I.l.tiles, I.l.b.stop hs, I.l.len, I.l.lt⟩, I.tk, I.dep, I.cnt⟩

theorem HeadI.pass {P : ImParams XR M} {f : StateFun XR M} {afun : List XR → XR} (hd : 0 < f.dimIn) (hE : ∀ m n x, AllFinite (P.est m n x))
    (hA : ∀ v, AllFinite v → lt negInf (afun v) = true) {n : Nat} {F : Prop} {pre : List (List XR)} {s s' : ImState XR M} (I : HeadI f.dimIn F pre n s)
    (hr : imPass P f afun s = .ok s') : HeadI f.dimIn F pre (n + 1) s' := by
  have h1 := imPass_post (U := True) (V := True) ⟨fun _ _ _ _ _ _ => trivial, fun _ _ _ _ _ _ => trivial⟩ hd (f := f) (P := P)
    (fun _ _ _ => trivial) afun s I.l (Or.inl trivial)
  rw [hr] at h1
  obtain ⟨h, i, vv, new, e, -, -, -, -, -, -, he, hc, htk, -, hde⟩ := imPass_best hE hA I.aligned I.tk hr
  exact ⟨h1.1, htk, by have := I.dep; omega, by have := I.cnt; omega⟩

theorem ImHead.inv {P : ImParams XR M} {f : StateFun XR M} {afun : List XR → XR} {reset : Bool} {st : ImState XR M} (hd : 0 < f.dimIn)
    (hE : ∀ m n x, AllFinite (P.est m n x)) (hA : ∀ v, AllFinite v → lt negInf (afun v) = true)
    (hF : reset = true ∨ st.base.totalIterations = 0) (hlen : st.base.samples.length = st.base.observations.length)
    (hdat : reset = false → DataInv st.base) {n : Nat} {s : ImState XR M} (hh : ImHead P f afun reset st n s) :
    ∃ pre, HeadI f.dimIn True pre n s := by
  induction hh with
  | start h =>
    have := imBegin_post (P := P) (f := f) (afun := afun) hF hlen hdat
    rw [h] at this; exact this
  | pass _ hs hr ih =>
    obtain ⟨pre, I⟩ := ih
    exact ⟨pre, (I.stop hs).pass hd hE hA hr⟩

/-- with enough fuel the loop ends -/
theorem imLoop_ends {P : ImParams XR M} {f : StateFun XR M} {afun : List XR → XR} (hd : 0 < f.dimIn) (hE : ∀ m n x, AllFinite (P.est m n x))
    (hA : ∀ v, AllFinite v → lt negInf (afun v) = true) (hC : ∀ xs ys m, P.bo.ops.compute xs ys m ≠ .diverge) {F : Prop} {pre : List (List XR)} :
    ∀ (fuel n : Nat) (s : ImState XR M), HeadI f.dimIn F pre n s → 3 ^ 999 < 1 + 2 * (n + fuel) → imLoop P f afun fuel s ≠ .diverge := by
  intro fuel
  induction fuel with
  | zero =>
    intro n s I hf
    exfalso
    have h1 := leafK_le_kraftK (s.tree.map fkey)
    rw [I.tk.kraft, List.length_map, I.l.len] at h1
    have h2 := I.cnt
    have h3 : (1000 - 1 : Nat) = 999 := rfl
    rw [h3] at h1
    revert h1 h2 hf
    generalize (3 : Nat) ^ 999 = w
    omega
  | succ fuel ih =>
    intro n s I hf
    have next : ∀ s : ImState XR M, HeadI f.dimIn F pre n s → (imPass P f afun s).andThen (imLoop P f afun fuel) ≠ .diverge := by
      intro s I
      have h1 := imPass_post (U := True) (V := False) ⟨fun _ _ _ _ _ _ => trivial, fun xs ys m _ _ h => hC xs ys m h⟩ hd (f := f) (P := P)
        (fun _ _ _ => trivial) afun s I.l (Or.inl trivial)
      cases hr : imPass P f afun s with
      | ub => simp [Res.andThen, Res.bind]
      | diverge => rw [hr] at h1; exact h1.elim
      | throw e s => simp [Res.andThen, Res.bind]
      | ok s' =>
        simp only [Res.andThen, Res.bind]
        refine ih (n + 1) s' (I.pass hd hE hA hr) ?_
        revert hf
        generalize (3 : Nat) ^ 999 = w
        omega
    unfold imLoop
    have hne : ¬ (s.base.samples.length = 0) := by
      rw [I.l.b.len]; intro e; exact I.l.b.ne (List.length_eq_zero_iff.1 e)
    rw [if_neg hne]
    cases hst : boStop P.bo afun s.base with
    | none => simp
    | some r =>
      obtain ⟨t, b⟩ := r
      cases t with
      | true => simp
      | false => exact next _ (I.stop hst)

theorem imOptimize_begin (P : ImParams XR M) (f : StateFun XR M) (afun : List XR → XR) (reset : Bool) (fuel : Nat) (st : ImState XR M) :
    imOptimize P f afun reset fuel st = (imBegin P f afun reset st).andThen fun s => (imLoop P f afun fuel s).andThen fun s =>
      if P.hpOpt then imBase s (withModel s.base (P.bo.ops.optHp s.base.model)) else .ok s := by
  unfold imOptimize imBegin
  simp only
  cases imBase { st with base := st.base.push (.start reset) } (boInit P.bo f reset (st.base.push (.start reset))) with
  | ok s => rfl
  | throw e s => rfl
  | ub => rfl
  | diverge => rfl

end Limbo
