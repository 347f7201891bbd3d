import Verif.Lemmas.BoTwin
import Verif.Lemmas.BoGp
import Verif.Props.BoAcqui

/-! Shifted data: what a GP with the mean of the data and the acquisition functions make of them, and `GridSearch` on shifted objectives. -/

namespace Limbo

open Gp Scalar

/-! ### Order and addition of a constant -/

theorem XR.lt_shift (a b : XR) (c : ℝ) : lt (a + XR.fin c) (b + XR.fin c) = lt a b := by
  cases a <;> cases b <;> try rfl
  show decide (_ + c < _ + c) = decide _
  simp

theorem XR.shift_zero (a : XR) : a + XR.fin 0 = a := by
  cases a <;> try rfl
  show Xt.fin (_ + 0) = _
  rw [add_zero]

/-- a value above a threshold is above every comparable value that is not -/
theorem XR.lt_of_not {B p a : XR} {B' : XR} {c : ℝ} (h1 : lt B a = true) (h2 : lt B p = false) (h3 : lt B' (p + XR.fin c) = true) (hB : isNaN B = false) :
    lt p a = true := by
  have hp : isNaN p = false := by
    cases p <;> try rfl
    exact absurd ((show lt B' _ = false from LawfulCmp.nan_lt_right B' ((Xt.nan : Xt ℝ) : XR) rfl).symm.trans h3) (by decide)
  have ha : isNaN a = false := by
    cases h : isNaN a
    · rfl
    · rw [LawfulCmp.nan_lt_right _ _ h] at h1; exact absurd h1 (by decide)
  rw [LawfulCmp.lt_eq _ _ hB ha] at h1
  rw [LawfulCmp.lt_eq _ _ hB hp] at h2
  rw [LawfulCmp.lt_eq _ _ hp ha]
  simp only [Bool.not_eq_true', Bool.not_eq_false'] at h1 h2 ⊢
  cases h : le a p
  · rfl
  · rw [LawfulCmp.le_trans _ _ _ h h2] at h1; exact absurd h1 (by decide)

/-! ### GridSearch -/

/-- the runs agree if both return a point -/
def GsSame (r r' : Option (Option (List XR) × List (List XR))) : Prop :=
  ∀ p p' tr tr', r = some (some p, tr) → r' = some (some p', tr') → p' = p

/-- loop invariant of the two runs -/
def GsInv (f : ObjFn XR) (c : ℝ) (b : XR) (r : Option (List XR)) (b' : XR) (r' : Option (List XR)) : Prop :=
  match r, r' with
  | none, none => b = negDblMax ∧ b' = negDblMax
  | none, some p => b = negDblMax ∧ b' = (f p false).1 + XR.fin c ∧ lt negDblMax (f p false).1 = false ∧ lt negDblMax ((f p false).1 + XR.fin c) = true
  | some p, none => b' = negDblMax ∧ b = (f p false).1 ∧ lt negDblMax ((f p false).1 + XR.fin c) = false ∧ lt negDblMax (f p false).1 = true
  | some p, some p' => p' = p ∧ b = (f p false).1 ∧ b' = (f p false).1 + XR.fin c

theorem negDblMax_num : isNaN (negDblMax : XR) = false := rfl

theorem XR.shift_back (a : XR) (c : ℝ) : a + XR.fin c + XR.fin (-c) = a := by
  cases a <;> try rfl
  show Xt.fin (_ + c + -c) = _
  rw [add_neg_cancel_right]

theorem gsFold_shift {f f' : ObjFn XR} {c : ℝ} (hf : ∀ x g, (f' x g).1 = (f x g).1 + XR.fin c ∧ (f' x g).2 = (f x g).2)
    {cand cand' : XR → Option (Option (List XR) × List (List XR))} (hc : ∀ x, GsSame (cand x) (cand' x)) :
    ∀ (xs : List XR) (b : XR) (r : Option (List XR)) (tr : List (List XR)) (b' : XR) (r' : Option (List XR)) (tr' : List (List XR)), GsInv f c b r b' r' →
      GsSame (gsFold f cand xs b r tr) (gsFold f' cand' xs b' r' tr')
  | [], b, r, tr, b', r', tr', h => by
    rintro p p' t t' h1 h2
    simp only [gsFold, Option.some.injEq, Prod.mk.injEq] at h1 h2
    obtain ⟨rfl, -⟩ := h1
    obtain ⟨rfl, -⟩ := h2
    exact h.1
  | x :: xs, b, r, tr, b', r', tr', h => by
    unfold gsFold
    rcases hx : cand x with _ | ⟨_ | p, t⟩
    · intro _ _ _ _ h1; simp at h1
    · intro _ _ _ _ h1; simp at h1
    rcases hx' : cand' x with _ | ⟨_ | p', t'⟩
    · intro _ _ _ _ _ h1; simp at h1
    · intro _ _ _ _ _ h1; simp at h1
    have hp := hc x p p' t t' hx hx'
    subst hp
    simp only [evalNoGrad, (hf p' false).1]
    have ih := fun b r tr b' r' tr' => gsFold_shift hf hc xs b r tr b' r' tr'
    cases r with
    | none =>
      cases r' with
      | none =>
        obtain ⟨rfl, rfl⟩ := h
        rcases (lt negDblMax (f p' false).1).eq_false_or_eq_true.symm with h1 | h1 <;>
          rcases (lt negDblMax ((f p' false).1 + XR.fin c)).eq_false_or_eq_true.symm with h2 | h2 <;> simp only [h1, h2, Bool.false_eq_true, if_true, if_false]
        · exact ih _ _ _ _ _ _ ⟨rfl, rfl⟩
        · exact ih _ _ _ _ _ _ ⟨rfl, rfl, h1, h2⟩
        · exact ih _ _ _ _ _ _ ⟨rfl, rfl, h2, h1⟩
        · exact ih _ _ _ _ _ _ ⟨rfl, rfl, rfl⟩
      | some q =>
        obtain ⟨rfl, rfl, h3, h4⟩ := h
        rw [XR.lt_shift]
        rcases (lt negDblMax (f p' false).1).eq_false_or_eq_true.symm with h1 | h1
        · rcases (lt (f q false).1 (f p' false).1).eq_false_or_eq_true.symm with h2 | h2 <;> simp only [h1, h2, Bool.false_eq_true, if_true, if_false]
          · exact ih _ _ _ _ _ _ ⟨rfl, rfl, h3, h4⟩
          · refine ih _ _ _ _ _ _ ⟨rfl, rfl, h1, ?_⟩
            have := XR.lt_shift (f q false).1 (f p' false).1 c
            rw [h2] at this
            exact LawfulCmp.lt_trans' h4 this
        · rw [XR.lt_of_not h1 h3 h4 negDblMax_num]
          simp only [h1, if_true]
          exact ih _ _ _ _ _ _ ⟨rfl, rfl, rfl⟩
    | some q =>
      cases r' with
      | none =>
        obtain ⟨rfl, rfl, h3, h4⟩ := h
        rcases (lt negDblMax ((f p' false).1 + XR.fin c)).eq_false_or_eq_true.symm with h1 | h1
        · rcases (lt (f q false).1 (f p' false).1).eq_false_or_eq_true.symm with h2 | h2 <;> simp only [h1, h2, Bool.false_eq_true, if_true, if_false]
          · exact ih _ _ _ _ _ _ ⟨rfl, rfl, h3, h4⟩
          · exact ih _ _ _ _ _ _ ⟨rfl, rfl, h1, LawfulCmp.lt_trans' h4 h2⟩
        · have h5 := XR.lt_of_not (B' := negDblMax) (c := -c) h1 h3 (by rw [XR.shift_back]; exact h4) negDblMax_num
          rw [XR.lt_shift] at h5
          simp only [h1, h5, if_true]
          exact ih _ _ _ _ _ _ ⟨rfl, rfl, rfl⟩
      | some q' =>
        obtain ⟨rfl, rfl, rfl⟩ := h
        rw [XR.lt_shift]
        rcases (lt (f q' false).1 (f p' false).1).eq_false_or_eq_true.symm with h2 | h2 <;> simp only [h2, Bool.false_eq_true, if_true, if_false]
        · exact ih _ _ _ _ _ _ ⟨rfl, rfl, rfl⟩
        · exact ih _ _ _ _ _ _ ⟨rfl, rfl, rfl⟩

theorem gsInner_shift {f f' : ObjFn XR} {c : ℝ} (hf : ∀ x g, (f' x g).1 = (f x g).1 + XR.fin c ∧ (f' x g).2 = (f x g).2) (axis : List XR) :
    ∀ (fuel depth : Nat) (cur : List XR), GsSame (gsInner f axis fuel depth cur) (gsInner f' axis fuel depth cur)
  | 0, _, _ => by intro _ _ _ _ h; simp [gsInner] at h
  | fuel + 1, depth, cur => by
    unfold gsInner
    split
    · refine gsFold_shift hf (fun x => ?_) _ _ _ _ _ _ _ ⟨rfl, rfl⟩
      dsimp only
      split
      · rintro _ _ _ _ h1 h2
        simp only [Option.some.injEq, Prod.mk.injEq] at h1 h2
        rw [← h1.1, ← h2.1]
      · exact gsInner_shift hf axis fuel _ _
    · intro _ _ _ _ h; simp at h

theorem gridSearch_shift {f f' : ObjFn XR} {c : ℝ} (hf : ∀ x g, (f' x g).1 = (f x g).1 + XR.fin c ∧ (f' x g).2 = (f x g).2) (bins fuel : Nat) (x : List XR)
    (b : Bool) {p p' : List XR} (h : gridSearch bins fuel f x b = some p) (h' : gridSearch bins fuel f' x b = some p') : p' = p := by
  unfold gridSearch gridSearchRun at h h'
  cases b with
  | false => simp at h
  | true =>
    simp only [if_true] at h h'
    cases ha : (gridSearchAxis bins fuel : Option (List XR)) with
    | none => rw [ha] at h; simp at h
    | some axis =>
      rw [ha] at h h'
      simp only at h h'
      have := gsInner_shift hf axis x.length 0 (x.map fun _ => lit (1 / 2))
      rcases h1 : gsInner f axis x.length 0 (x.map fun _ => lit (1 / 2)) with _ | ⟨r, tr⟩
      · rw [h1] at h; simp at h
      rcases h2 : gsInner f' axis x.length 0 (x.map fun _ => lit (1 / 2)) with _ | ⟨r', tr'⟩
      · rw [h2] at h'; simp at h'
      rw [h1] at h; rw [h2] at h'
      simp only at h h'
      subst h h'
      exact this _ _ _ _ h1 h2

/-! ### The GP -/

theorem shiftX_map (t : Nat → ℝ) (v : List ℝ) : shiftX t (v.map XR.fin) = (shiftR t v).map XR.fin := by
  unfold shiftX shiftR
  refine List.ext_getElem (by simp) fun i h1 h2 => ?_
  simp only [List.getElem_mapIdx, List.getElem_map]
  rfl

theorem shiftR_length (t : Nat → ℝ) (v : List ℝ) : (shiftR t v).length = v.length := by simp [shiftR]

theorem shiftR_range (t : Nat → ℝ) (m : Nat → ℝ) (n : Nat) : shiftR t ((List.range n).map m) = (List.range n).map fun c => m c + t c := by
  refine List.ext_getElem (by simp [shiftR]) fun i h1 h2 => ?_
  simp [shiftR]

theorem at'_shiftR (t : Nat → ℝ) {v : List ℝ} {c : Nat} (h : c < v.length) : at' (shiftR t v) c = at' v c + t c := by
  have h' : c < (shiftR t v).length := by rw [shiftR_length]; exact h
  unfold at'
  rw [List.getD_eq_getElem _ _ h', List.getD_eq_getElem _ _ h]
  simp [shiftR]

theorem dataMeanOf_shift (t : Nat → ℝ) {ys : List (List ℝ)} {c : Nat} (hne : ys ≠ []) (h : ∀ y ∈ ys, c < y.length) :
    dataMeanOf (ys.map (shiftR t)) c = dataMeanOf ys c + t c := by
  have key : ∀ ys : List (List ℝ), (∀ y ∈ ys, c < y.length) → ((ys.map (shiftR t)).map fun y => at' y c).sum = (ys.map fun y => at' y c).sum + ys.length * t c := by
    intro ys
    induction ys with
    | nil => intro _; simp
    | cons y ys ih =>
      intro h
      simp only [List.map_cons, List.sum_cons, List.length_cons, Nat.cast_add, Nat.cast_one]
      rw [ih fun z hz => h z (List.mem_cons_of_mem _ hz), at'_shiftR t (h y List.mem_cons_self)]
      ring
  have hpos : (ys.length : ℝ) ≠ 0 := by
    have := List.length_pos_iff.2 hne
    exact_mod_cast this.ne'
  unfold dataMeanOf
  rw [key ys h, List.length_map, add_div, mul_div_cancel_left₀ _ hpos]

variable {E : GpEnv} {t : Nat → ℝ}

/-- data and shifted data, as a GP holds them -/
theorem shifted_data {s o : List (List XR)} (hl : s.length = o.length) {xs ys xs' ys' : List (List ℝ)} (h1 : xs.length = ys.length)
    (h1' : xs'.length = ys'.length) (e : s.zip o = finPairs xs ys) (e' : s.zip (o.map (shiftX t)) = finPairs xs' ys') :
    xs' = xs ∧ ys' = ys.map (shiftR t) := by
  rw [← zip_finPairs] at e
  have hs := congrArg (List.map Prod.fst) e
  have ho := congrArg (List.map Prod.snd) e
  rw [List.map_fst_zip hl.le, List.map_fst_zip (by simp [h1])] at hs
  rw [List.map_snd_zip hl.ge, List.map_snd_zip (by simp [h1])] at ho
  rw [hs, ho, List.map_map] at e'
  have : (shiftX t ∘ List.map XR.fin) = (List.map XR.fin) ∘ shiftR t := by funext v; exact shiftX_map t v
  rw [this, ← List.map_map, zip_finPairs] at e'
  obtain ⟨a, b⟩ := finPairs_inj (by simp [h1]) h1' e'
  exact ⟨a.symm, b.symm⟩

theorem data_op (hM : E.M = dataMean) (s : E.M.St) (v : List ℝ) (mo : Nat → ℝ) (c : Nat) : E.M.op s v mo c = mo c := by
  have : ∀ M : MeanImpl, M = dataMean → ∀ (s : M.St) (v : List ℝ) (mo : Nat → ℝ) (c : Nat), M.op s v mo c = mo c := by
    rintro M rfl s v mo c; rfl
  exact this _ hM s v mo c

/-- Two GPs whose data differ by a constant: the predictions differ by the same constant, the variances are the same. -/
theorem gp_shift (hE : LawfulEnv E) (hM : E.M = dataMean) {s o : List (List XR)} (hl : s.length = o.length) (hne : s ≠ []) {g g' : GpState E}
    (hg : FixRel g (s.zip o)) (hg' : FixRel g' (s.zip (o.map (shiftX t)))) :
    g'.samples = g.samples ∧ g'.dimIn = g.dimIn ∧ ∃ (mean : List ℝ → List ℝ) (var : List ℝ → ℝ), Predicts g mean var ∧
      Predicts g' (fun v => shiftR t (mean v)) var ∧ ∀ v, mean v ≠ [] := by
  obtain ⟨⟨xs, ys, h1, e, hr⟩, hk, -⟩ := hg
  obtain ⟨⟨xs', ys', h1', e', hr'⟩, hk', -⟩ := hg'
  obtain ⟨rfl, rfl⟩ := shifted_data hl h1 h1' e e'
  have hx : xs' ≠ [] := by
    rintro rfl
    have := congrArg List.length e
    simp [finPairs] at this
    rcases this with h | h
    · exact hne h
    · rw [h] at hl; exact hne (List.length_eq_zero_iff.1 hl)
  have hy : ys ≠ [] := by rintro rfl; exact hx (List.length_eq_zero_iff.1 h1)
  obtain ⟨din, dout, hh⟩ := (hr.tracks hE).ne hx
  obtain ⟨din', dout', hh'⟩ := (hr'.tracks hE).ne hx
  obtain ⟨x0, hx0⟩ := List.exists_mem_of_ne_nil _ hx
  obtain ⟨y0, hy0⟩ := List.exists_mem_of_ne_nil _ hy
  have d1 : din' = din := (hh'.data.inputs _ hx0).symm.trans (hh.data.inputs _ hx0)
  have d2 : dout' = dout := by
    have := hh'.data.outputs _ (List.mem_map_of_mem hy0)
    rw [shiftR_length] at this
    exact this.symm.trans (hh.data.outputs _ hy0)
  subst d1 d2
  have hkf : g'.kf = g.kf := by
    rw [hh.dimIn] at hk; rw [hh'.dimIn] at hk'
    rcases hk with hk | hk
    · exact absurd hk (by omega)
    rcases hk' with hk' | hk'
    · exact absurd hk' (by omega)
    rw [hk, hk']
  obtain ⟨s1, s2⟩ := C65_data hE hr
  obtain ⟨s1', s2'⟩ := C65_data hE hr'
  refine ⟨s1'.trans s1.symm, by rw [hh.dimIn, hh'.dimIn], ?_⟩
  have hmu := fun v => C27_mu_is_posterior_mean hE hr hx rfl hh.data v
  have hmu' := fun v => C27_mu_is_posterior_mean hE hr' hx rfl hh'.data v
  have hsg := fun v => C27_sigma_is_posterior_variance hE hr hx rfl v
  have hsg' := fun v => C27_sigma_is_posterior_variance hE hr' hx rfl v
  choose m hm1 hm2 using hmu
  choose m' hm1' hm2' using hmu'
  have hmean : ∀ v, ∀ c < dout', meanFn g'.mf (ys.map (shiftR t)) dout' v c = meanFn g.mf ys dout' v c + t c := by
    intro v c hc
    unfold meanFn
    rw [data_op hM, data_op hM]
    simp only [hc, if_true]
    exact dataMeanOf_shift t hy fun y hy' => by rw [hh.data.outputs y hy']; exact hc
  have hmm : ∀ v, ∀ c < dout', m' v c = m v c + t c := by
    intro v c hc
    rw [hm2' v c hc, hm2 v c hc, hkf]
    unfold postMean
    have hres : resid (meanFn g'.mf (ys.map (shiftR t)) dout') xs' (ys.map (shiftR t)) c = resid (meanFn g.mf ys dout') xs' ys c := by
      funext i
      unfold resid
      have hi : i.val < ys.length := h1 ▸ i.2
      rw [hmean _ c hc, List.getD_eq_getElem _ _ (by simpa using hi), List.getD_eq_getElem _ _ hi, List.getElem_map,
        at'_shiftR t (by rw [hh.data.outputs _ (List.getElem_mem hi)]; exact hc)]
      ring
    rw [hres, hmean v c hc]
    ring
  refine ⟨fun v => (List.range dout').map (m v), fun v => reportedVar g.kf.op g.kf.noise xs' v, fun v => ⟨m v, ?_, ?_⟩, fun v => ⟨m' v, ?_, ?_⟩, fun v => ?_⟩
  · rw [C28_query_is_mu_sigma, hm1 v, hsg v]; rfl
  · rw [hh.dimOut]; rfl
  · rw [C28_query_is_mu_sigma, hm1' v, hsg' v, hkf]; rfl
  · rw [hh'.dimOut]
    show shiftR t ((List.range dout').map (m v)) = _
    rw [shiftR_range]
    refine List.map_congr_left fun c hc => ?_
    exact (hmm v c (List.mem_range.1 hc)).symm
  · have := hh.data.dout_pos
    intro h0
    have := congrArg List.length h0
    simp at this
    omega

/-! ### Acquisition functions -/

theorem maxElement_shift (c : ℝ) (l : List ℝ) : Acqui.maxElement (l.map (· + c)) = (Acqui.maxElement l).map (· + c) := by
  cases l with
  | nil => rfl
  | cons r rs =>
    simp only [List.map_cons, Acqui.maxElement, Option.map_some, Option.some.injEq]
    induction rs generalizing r with
    | nil => rfl
    | cons x xs ih =>
      simp only [List.map_cons, List.foldl_cons, add_lt_add_iff_right]
      split
      · exact ih x
      · exact ih r

section
variable {g g' : GpState E} {mean : List ℝ → List ℝ} {var : List ℝ → ℝ} {afun : List XR → XR} {F : List ℝ → ℝ} {c : ℝ}

theorem rewards_shift (h : Predicts g mean var) (h' : Predicts g' (fun v => shiftR t (mean v)) var) (hc : ∀ v, F (shiftR t (mean v)) = F (mean v) + c)
    (ss : List (List ℝ)) : Acqui.rewards (Gp.view g') F ss = (Acqui.rewards (Gp.view g) F ss).map (List.map (· + c)) := by
  induction ss with
  | nil => rfl
  | cons s ss ih =>
    simp only [Acqui.rewards, h.view_mu, h'.view_mu, Option.bind_some, ih, Option.map_map]
    congr 1
    funext l
    simp [hc]

theorem ucb_shift (h : Predicts g mean var) (h' : Predicts g' (fun v => shiftR t (mean v)) var) (hF : ∀ l, afun (l.map XR.fin) = XR.fin (F l))
    (hc : ∀ v, F (shiftR t (mean v)) = F (mean v) + c) (alpha : ℝ) (it : Int) (x : List XR) (b : Bool) :
    (ucbObj alpha g' it afun x b).1 = (ucbObj alpha g it afun x b).1 + XR.fin c ∧ (ucbObj alpha g' it afun x b).2 = (ucbObj alpha g it afun x b).2 := by
  unfold ucbObj
  rw [realAgg_eq hF]
  cases hx : reals? x with
  | none => exact ⟨rfl, rfl⟩
  | some v =>
    cases b with
    | true => simp only [Option.bind_some, Acqui.ucb, if_true]; exact ⟨rfl, trivial⟩
    | false =>
      simp only [Option.bind_some, Acqui.ucb, h.view, h'.view, Bool.false_eq_true, if_false, Option.map_some, hc, and_true]
      show Xt.fin _ = Xt.fin _
      congr 1; ring

theorem gpUcb_shift (h : Predicts g mean var) (h' : Predicts g' (fun v => shiftR t (mean v)) var) (hF : ∀ l, afun (l.map XR.fin) = XR.fin (F l))
    (hc : ∀ v, F (shiftR t (mean v)) = F (mean v) + c) (hd : g'.dimIn = g.dimIn) (delta : ℝ) (it : Int) (x : List XR) (b : Bool) :
    (gpUcbObj delta g' it afun x b).1 = (gpUcbObj delta g it afun x b).1 + XR.fin c ∧
      (gpUcbObj delta g' it afun x b).2 = (gpUcbObj delta g it afun x b).2 := by
  unfold gpUcbObj
  rw [realAgg_eq hF]
  cases hx : reals? x with
  | none => exact ⟨rfl, rfl⟩
  | some v =>
    cases b with
    | true => simp only [Option.bind_some, Acqui.gpUcb, if_true]; exact ⟨rfl, trivial⟩
    | false =>
      have e : (Gp.view g').dimIn = (Gp.view g).dimIn := by simp [Gp.view, hd]
      simp only [Option.bind_some, Acqui.gpUcb, h.view, h'.view, Bool.false_eq_true, if_false, Option.map_some, hc, and_true, e]
      generalize Acqui.gpUcbBeta _ _ _ * XR.sqrt _ = B
      cases B <;> try rfl
      show Xt.fin _ = Xt.fin _
      congr 1; ring

theorem ei_val_shift (h : Predicts g mean var) (h' : Predicts g' (fun v => shiftR t (mean v)) var) (hc : ∀ v, F (shiftR t (mean v)) = F (mean v) + c)
    (hs : g'.samples = g.samples) (jitter u : ℝ) (x : List XR) (b : Bool) :
    ((reals? x).bind fun v => Acqui.ei (Gp.view g') F jitter (.new u) v b).map Prod.snd =
      ((reals? x).bind fun v => Acqui.ei (Gp.view g) F jitter (.new u) v b).map Prod.snd := by
  cases hx : reals? x with
  | none => simp only [Option.bind_none]
  | some v =>
    cases b with
    | true => simp only [Option.bind_some, Acqui.ei, if_true]
    | false =>
      have e : (Gp.view g').samples = (Gp.view g).samples := hs
      simp only [Option.bind_some, Acqui.ei, h.view, h'.view, Bool.false_eq_true, if_false, hc, e]
      by_cases hσ : √(var v) < 1e-10 ∨ (Gp.view g).samples.length < 1
      · simp only [if_pos hσ]
      · have hn : (-1 : Int) ≠ ((Gp.view g).samples.length : Int) := by omega
        simp only [if_neg hσ, Acqui.EiSt.refresh, Acqui.EiSt.new, e, hn, ne_eq, not_false_eq_true, if_true, rewards_shift h h' hc]
        generalize Acqui.rewards (Gp.view g) F (Gp.view g).samples = rs
        cases rs with
        | none => simp only [Option.map_none, Option.bind_none]
        | some rs =>
          simp only [Option.map_some, Option.bind_some, maxElement_shift]
          generalize Acqui.maxElement rs = f
          cases f with
          | none => simp only [Option.map_none]
          | some f => simp only [Option.map_some, add_sub_add_right_eq_sub]

theorem ei_shift (h : Predicts g mean var) (h' : Predicts g' (fun v => shiftR t (mean v)) var) (hF : ∀ l, afun (l.map XR.fin) = XR.fin (F l))
    (hc : ∀ v, F (shiftR t (mean v)) = F (mean v) + c) (hs : g'.samples = g.samples) (jitter u : ℝ) (it : Int) (x : List XR) (b : Bool) :
    eiObj jitter u g' it afun x b = eiObj jitter u g it afun x b := by
  have hv := ei_val_shift h h' hc hs jitter u x b
  unfold eiObj
  rw [realAgg_eq hF]
  generalize ((reals? x).bind fun v => Acqui.ei (Gp.view g') F jitter (.new u) v b) = o' at hv ⊢
  generalize ((reals? x).bind fun v => Acqui.ei (Gp.view g) F jitter (.new u) v b) = o at hv ⊢
  rcases o with _ | o <;> rcases o' with _ | o'
  · rfl
  · simp at hv
  · simp at hv
  · simp only [Option.map_some, Option.some.injEq] at hv
    simp only [hv]

end

end Limbo
