import Verif.Lemmas.MultiGp
import Verif.Props.GpSave

set_option linter.unusedSectionVars false

/-! Predictions of a `MultiGP`. -/

namespace Limbo

open Finset Matrix

section loop

variable {σ β γ : Type} {f : Nat → σ → Option β}

theorem loopM_get : ∀ {i : Nat} {l : List σ} {l' : List β}, loopM f i l = some l' → ∀ (n : Nat) g, l[n]? = some g → ∃ b, l'[n]? = some b ∧ f (i + n) g = some b := by
  intro i l l' h n g hg
  obtain ⟨h1, h2⟩ := loopM_spec h
  obtain ⟨hn, -⟩ := List.getElem?_eq_some_iff.1 hg
  have hn' : n < l'.length := by omega
  obtain ⟨g', hg', hb⟩ := h2 n l'[n] (List.getElem?_eq_getElem hn')
  rw [hg] at hg'; cases hg'
  exact ⟨_, List.getElem?_eq_getElem hn', hb⟩

/-- One loop computing pairs is two loops. -/
theorem loopM_pair {f1 : Nat → σ → Option β} {f2 : Nat → σ → Option γ} : ∀ (i : Nat) (l : List σ),
    (loopM (fun i g => (f1 i g).bind fun a => (f2 i g).map fun b => (a, b)) i l).map (fun l => (l.map (·.1), l.map (·.2)))
      = (loopM f1 i l).bind fun a => (loopM f2 i l).map fun b => (a, b)
  | i, [] => rfl
  | i, s :: l => by
    have ih := loopM_pair (f1 := f1) (f2 := f2) (i + 1) l
    simp only [loopM]
    cases h1 : f1 i s with
    | none => simp
    | some a =>
      cases h2 : f2 i s with
      | none =>
        simp only [Option.bind_some, Option.map_none, Option.bind_none, Option.map_none]
        cases loopM f1 (i + 1) l <;> simp
      | some b =>
        simp only [Option.bind_some, Option.map_some]
        cases h3 : loopM f1 (i + 1) l with
        | none =>
          rw [h3] at ih
          simp only [Option.bind_none, Option.map_eq_none_iff] at ih
          simp [ih]
        | some u =>
          cases h4 : loopM f2 (i + 1) l with
          | none =>
            rw [h3, h4] at ih
            simp only [Option.bind_some, Option.map_none, Option.map_eq_none_iff] at ih
            simp [ih]
          | some w =>
            rw [h3, h4] at ih
            simp only [Option.bind_some, Option.map_some] at ih
            rw [Option.map_eq_some_iff] at ih
            obtain ⟨r, hr, he⟩ := ih
            simp only [Prod.mk.injEq] at he
            simp [hr, he]

theorem loopM_congr {τ : Type} {f' : Nat → τ → Option β} : ∀ {i : Nat} {l : List σ} {l' : List τ}, l.length = l'.length →
    (∀ (n : Nat) g g', l[n]? = some g → l'[n]? = some g' → f (i + n) g = f' (i + n) g') → loopM f i l = loopM f' i l'
  | i, [], [], _, _ => rfl
  | i, s :: l, s' :: l', hl, h => by
    have h0 := h 0 s s' rfl rfl
    rw [Nat.add_zero] at h0
    simp only [loopM, h0]
    have : loopM f (i + 1) l = loopM f' (i + 1) l' := loopM_congr (by simpa using hl) (by
      intro n g g' hg hg'
      have := h (n + 1) g g' (by simpa using hg) (by simpa using hg')
      rw [show i + 1 + n = i + (n + 1) by omega]; exact this)
    rw [this]

end loop

theorem resid_centred (m : List ℝ → Nat → ℝ) (xs ys : List (List ℝ)) (h : ys.length = xs.length) (c : Nat) :
    resid (fun _ _ => 0) xs (centred m xs ys c) 0 = resid m xs ys c := by
  funext i
  unfold resid centred
  have h1 : (i : Nat) < ys.length := by rw [h]; exact i.2
  rw [List.getD_eq_getElem _ _ (by rw [List.length_zipWith]; omega), List.getD_eq_getElem _ _ h1]
  simp [at']

/-- The residuals are all the prediction needs. -/
theorem postMean_centred (k : List ℝ → List ℝ → ℝ) (m : List ℝ → Nat → ℝ) (s : ℝ) (xs ys : List (List ℝ)) (h : ys.length = xs.length) (v : List ℝ) (c : Nat) :
    postMean k m s xs ys v c = m v c + postMean k (fun _ _ => 0) s xs (centred m xs ys c) v 0 := by
  unfold postMean
  rw [zero_add, resid_centred m xs ys h c]

namespace MultiGp

open Gp

variable {E : GpEnv} {B : MgAbs} {st : MultiGpState E} {din dout : Nat}

theorem sub_pred (hE : LawfulEnv E) (M : MTracks E B st) (hd : DataSet B.xs B.ys din dout) (hr : B.r = true) (ha : B.a = true) {c : Nat} {g : GpState E.sub}
    (hg : st.models[c]? = some g) (v : List ℝ) :
    ∃ m, Gp.mu g v = some m ∧ m 0 + meanAt st v c = postMean g.kf.op (meanFn st.mf B.ys dout) (g.kf.noise + 1e-8) B.xs B.ys v c := by
  obtain ⟨-, hdo, hl, hmo⟩ := M.dims hd
  obtain ⟨A, T, e1, -, -, e4, -, e6, -⟩ := M.subs c g hg
  rw [hdo, Int.toNat_natCast] at e6
  have hds : DataSet A.xs A.ys din 1 := by rw [e1, e6 hr]; exact centred_dataset hd c
  obtain ⟨h1, h2⟩ := mu_spec (sub_lawful hE) T (by rw [e1]; exact hd.nonempty) (e4 ha) hds v
  refine ⟨_, h1, ?_⟩
  rw [h2 0 Nat.one_pos, e1, e6 hr, meanAt_eq M.obs hd.ys_ne hmo, postMean_centred _ _ _ _ _ hd.same, add_comm]
  rw [op_fun]
  rfl

theorem sub_sigma (hE : LawfulEnv E) (M : MTracks E B st) (hd : DataSet B.xs B.ys din dout) (hk : B.k = true) {c : Nat} {g : GpState E.sub}
    (hg : st.models[c]? = some g) (v : List ℝ) :
    Gp.sigma g v = some ((if postVar g.kf.op (g.kf.noise + 1e-8) B.xs v ≤ 2 ^ (-52 : ℤ) then 0
      else postVar g.kf.op (g.kf.noise + 1e-8) B.xs v) + g.kf.noise) := by
  obtain ⟨A, T, e1, e2, -⟩ := M.subs c g hg
  obtain ⟨h1, h2⟩ := sigma_spec (sub_lawful hE) T (by rw [e1]; exact hd.nonempty) (e2 hk) v
  have : dblEps = 2 ^ (-52 : ℤ) := by unfold dblEps; norm_num
  rw [h1, h2, this, op_fun, e1]

theorem guard_ok (M : MTracks E B st) (hd : DataSet B.xs B.ys din dout) : ¬(st.dimOut ≤ 0 ∨ (st.models.length : Int) ≠ st.dimOut) := by
  obtain ⟨-, hdo, hl, -⟩ := M.dims hd
  have := hd.dout_pos
  rw [hdo, hl]
  omega

theorem mu_eval (hE : LawfulEnv E) (M : MTracks E B st) (hd : DataSet B.xs B.ys din dout) (hr : B.r = true) (ha : B.a = true) (v : List ℝ) :
    ∃ m, mu st v = some m ∧ m.length = dout ∧ ∀ (c : Nat) (g : GpState E.sub), st.models[c]? = some g →
      m[c]? = some (postMean g.kf.op (meanFn st.mf B.ys dout) (g.kf.noise + 1e-8) B.xs B.ys v c) := by
  obtain ⟨-, hdo, hl, hmo⟩ := M.dims hd
  unfold mu
  rw [if_neg (guard_ok M hd)]
  obtain ⟨m, hm⟩ := loopM_ok (f := fun i g => (Gp.mu g v).map fun m => m 0 + meanAt st v i) (i := 0) (l := st.models) (by
    intro n g hg
    obtain ⟨m, h1, -⟩ := sub_pred hE M hd hr ha hg v
    exact ⟨_, by rw [h1]; rfl⟩)
  refine ⟨m, hm, by rw [(loopM_spec hm).1, hl], ?_⟩
  intro c g hg
  obtain ⟨b, hb, hf⟩ := loopM_get hm c g hg
  obtain ⟨m', h1, h2⟩ := sub_pred hE M hd hr ha hg v
  rw [h1, Option.map_some, Nat.zero_add, h2] at hf
  rw [hb, hf]

theorem sigma_eval (hE : LawfulEnv E) (M : MTracks E B st) (hd : DataSet B.xs B.ys din dout) (hk : B.k = true) (v : List ℝ) :
    ∃ m, sigma st v = some m ∧ m.length = dout ∧ ∀ (c : Nat) (g : GpState E.sub), st.models[c]? = some g →
      m[c]? = some ((if postVar g.kf.op (g.kf.noise + 1e-8) B.xs v ≤ 2 ^ (-52 : ℤ) then 0
        else postVar g.kf.op (g.kf.noise + 1e-8) B.xs v) + g.kf.noise) := by
  obtain ⟨-, hdo, hl, hmo⟩ := M.dims hd
  unfold sigma
  rw [if_neg (guard_ok M hd)]
  obtain ⟨m, hm⟩ := loopM_ok (f := fun _ g => Gp.sigma g v) (i := 0) (l := st.models) (by
    intro n g hg
    exact ⟨_, sub_sigma hE M hd hk hg v⟩)
  refine ⟨m, hm, by rw [(loopM_spec hm).1, hl], ?_⟩
  intro c g hg
  obtain ⟨b, hb, hf⟩ := loopM_get hm c g hg
  rw [sub_sigma hE M hd hk hg v] at hf
  rw [hb, hf]

/-- Two up-to-date `MultiGP`s with the same data and functors predict the same. -/
theorem same_of_tracks (hE : LawfulEnv E) {B' : MgAbs} {s t : MultiGpState E} (M : MTracks E B s) (M' : MTracks E B' t) (hB : B.UpToDate) (hB' : B'.UpToDate)
    (hx : B'.xs = B.xs) (hy : B'.ys = B.ys) (hd : DataSet B.xs B.ys din dout) (hk : s.models.map (·.kf) = t.models.map (·.kf))
    (hm : ∀ v mo, ∀ c < dout, E.M.op s.mf v mo c = E.M.op t.mf v mo c) (v : List ℝ) :
    ∃ m σ, mu s v = some m ∧ mu t v = some m ∧ sigma s v = some σ ∧ sigma t v = some σ := by
  obtain ⟨-, hr, hkk, -, ha⟩ := hB
  obtain ⟨-, hr', hkk', -, ha'⟩ := hB'
  have hd' : DataSet B'.xs B'.ys din dout := by rw [hx, hy]; exact hd
  obtain ⟨m, h1, h2, h3⟩ := mu_eval hE M hd hr ha v
  obtain ⟨m', h1', h2', h3'⟩ := mu_eval hE M' hd' hr' ha' v
  obtain ⟨σ, g1, g2, g3⟩ := sigma_eval hE M hd hkk v
  obtain ⟨σ', g1', g2', g3'⟩ := sigma_eval hE M' hd' hkk' v
  have hl := (M.dims hd).2.2.1
  have hl' := (M'.dims hd').2.2.1
  have hkc : ∀ c (hc : c < dout), (s.models[c]'(by omega)).kf = (t.models[c]'(by omega)).kf := by
    intro c hc
    have := congrArg (fun l => l[c]?) hk
    simp only [List.getElem?_map] at this
    rw [List.getElem?_eq_getElem (by omega), List.getElem?_eq_getElem (by omega)] at this
    simpa using this
  have em : m = m' := by
    apply List.ext_getElem (by omega)
    intro c hc hc'
    have a := h3 c _ (List.getElem?_eq_getElem (by omega))
    have b := h3' c _ (List.getElem?_eq_getElem (by omega))
    rw [List.getElem?_eq_getElem hc] at a
    rw [List.getElem?_eq_getElem hc'] at b
    rw [Option.some.inj a, Option.some.inj b, hkc c (by omega), hx, hy]
    have : ∀ w, meanFn s.mf B.ys dout w c = meanFn t.mf B.ys dout w c := fun w => hm _ _ c (by omega)
    unfold postMean
    rw [this]
    congr 3
    funext i
    unfold resid
    rw [this]
  have es : σ = σ' := by
    apply List.ext_getElem (by omega)
    intro c hc hc'
    have a := g3 c _ (List.getElem?_eq_getElem (by omega))
    have b := g3' c _ (List.getElem?_eq_getElem (by omega))
    rw [List.getElem?_eq_getElem hc] at a
    rw [List.getElem?_eq_getElem hc'] at b
    rw [Option.some.inj a, Option.some.inj b, hkc c (by omega), hx]
  subst em; subst es
  exact ⟨m, σ, h1, h1', g1, g1'⟩

/-- The mean functor used once data with `dout` outputs arrive. -/
noncomputable def meanNow (st : MultiGpState E) (dout : Nat) : E.M.St := if st.models = [] then E.M.new dout else st.mf

/-- Adding samples one after another succeeds. -/
theorem adds_ok (hE : LawfulEnv E) {ind : Bool} (hind : ind = true → E.M.IgnoresData) : ∀ (new : List (List ℝ × List ℝ × MultiJunk)) {B : MgAbs} {st : MultiGpState E},
    MTracks E B st → new ≠ [] → DataSet (B.xs ++ new.map (·.1)) (B.ys ++ new.map (·.2.1)) din dout →
    (st.models = [] ∨ (st.dimIn = din ∧ st.dimOut = dout)) →
    ∃ s, run st (new.map fun p => (.add p.1 p.2.1, p.2.2)) = some s ∧ MTracks E (B.run ind (new.map fun p => (.add p.1 p.2.1, p.2.2))) s ∧
      s.mf = meanNow st dout ∧ s.models.length = dout ∧
      ∀ (c : Nat) (g : GpState E.sub), s.models[c]? = some g → g.kf = kernAt st din c ∧ g.dimIn = din := by
  intro new
  induction new with
  | nil => intro B st _ h; exact absurd rfl h
  | cons p new ih =>
    intro B st M _ hd hc
    obtain ⟨x, y, junk⟩ := p
    simp only [List.map_cons] at hd
    have hsame : B.ys.length = B.xs.length := by
      by_cases hb : B.xs = []
      · rw [hb, M.empty hb]
      · obtain ⟨_, _, h, -⟩ := M.ne hb; exact h.same
    have hd1 : DataSet (B.xs ++ [x]) (B.ys ++ [y]) din dout := by
      refine ⟨by simp, by simp [hsame], ?_, ?_, hd.din_pos, hd.dout_pos⟩
      · intro z hz; exact hd.inputs z (by simp only [List.mem_append, List.mem_cons, List.not_mem_nil, or_false] at hz ⊢; tauto)
      · intro z hz; exact hd.outputs z (by simp only [List.mem_append, List.mem_cons, List.not_mem_nil, or_false] at hz ⊢; tauto)
    obtain ⟨s1, h1, M1, hmf, hdi, hdo, hl, hkk⟩ := add_ok hE M junk hd1 hc hind
    have hne1 : s1.models ≠ [] := by intro e; rw [e] at hl; have := hd.dout_pos; simp at hl; omega
    by_cases hnew : new = []
    · subst hnew
      refine ⟨s1, by simp [run, step, h1], M1, hmf, hl, fun c g hg => ⟨(hkk c g hg).1, (hkk c g hg).2.1⟩⟩
    · obtain ⟨s, h2, M2, hmf2, hl2, hk2⟩ := ih M1 hnew (by
        show DataSet ((B.xs ++ [x]) ++ _) ((B.ys ++ [y]) ++ _) din dout
        simpa using hd) (Or.inr ⟨hdi, hdo⟩)
      refine ⟨s, by simp [run, step, h1]; exact h2, M2, ?_, hl2, ?_⟩
      · rw [hmf2]; unfold meanNow; rw [if_neg hne1, hmf]
      · intro c g hg
        obtain ⟨e1, e2⟩ := hk2 c g hg
        refine ⟨?_, e2⟩
        have hcl : c < s1.models.length := by
          obtain ⟨hh, -⟩ := List.getElem?_eq_some_iff.1 hg
          omega
        obtain ⟨e3, e4, -⟩ := hkk c _ (List.getElem?_eq_getElem hcl)
        rw [e1, kernAt_of (List.getElem?_eq_getElem hcl) e4, e3]

/-- `compute` without the kernel leaves the weights of a sub-model as they were. -/
theorem sub_compute_false {A : GpAbs} {g g' : GpState E.sub} (hE : LawfulEnv E) (T : Tracks E.sub A g) (hA : A.a = true) (hdA : DataSet A.xs A.ys din 1) {ys' : List (List ℝ)}
    (hd : DataSet A.xs ys' din 1) {junk : Nat → Nat → ℝ} (h : Gp.compute junk g A.xs ys' false = some g') (v : List ℝ) :
    ∃ m m', Gp.mu g v = some m ∧ Gp.mu g' v = some m' ∧ m' 0 = m 0 := by
  have hh := T.hasData hdA
  obtain ⟨h1, -⟩ := mu_spec (sub_lawful hE) T hdA.nonempty hA hdA v
  obtain ⟨s1, hh1, hk, hm, hs, hc⟩ := compute_data junk g hd false
  obtain ⟨mv, om, ho, -⟩ := meanObs_form junk hh1
  rw [hc, ho, Option.bind_some] at h
  simp only [Bool.false_eq_true, if_false, Option.some.injEq] at h
  have hne0 : ¬ g.samples.length = 0 := by rw [T.samples]; intro e; exact hdA.nonempty (List.length_eq_zero_iff.1 e)
  have hok : muOk g = true := by
    unfold Gp.mu at h1
    rw [if_neg hne0] at h1
    by_contra hc
    rw [if_neg hc] at h1; cases h1
  have e1 : g'.samples = g.samples := by rw [← h, T.samples]; exact hh1.samples
  have e2 : g'.alpha = g.alpha := by rw [← h]; show s1.alpha = _; rw [hs]
  have e3 : g'.kf = g.kf := by rw [← h]; show s1.kf = _; rw [hk, if_pos hh.dimIn]
  refine ⟨_, muK g' v (computeK g' v), h1, ?_, ?_⟩
  · unfold Gp.mu
    rw [if_neg (by rw [e1]; exact hne0), if_pos (by unfold muOk at hok ⊢; rw [e1, e2]; exact hok)]
  · unfold muK computeK
    rw [e1, e2, e3]
    rfl

/-- Equal predictions at the samples force residuals that the covariance matrix does not tell apart. -/
theorem same_pred_resid {E : GpEnv} {kf : BaseK E.K} {d : Nat} (hk : KOK kf d) {xs : List (List ℝ)}
    (hx : ∀ x ∈ xs, x.length = d) {r1 r2 : Fin xs.length → ℝ}
    (h : ∀ i : Fin xs.length, kvec (E.K.kernel kf.inner) xs xs[i] ⬝ᵥ ((gramM (E.K.kernel kf.inner) (kf.noise + 1e-8) xs)⁻¹ *ᵥ r1)
      = kvec (E.K.kernel kf.inner) xs xs[i] ⬝ᵥ ((gramM (E.K.kernel kf.inner) (kf.noise + 1e-8) xs)⁻¹ *ᵥ r2)) (i : Fin xs.length) :
    kvec (E.K.kernel kf.inner) xs xs[i] ⬝ᵥ r1 = kvec (E.K.kernel kf.inner) xs xs[i] ⬝ᵥ r2 := by
  have hpd := gram_pd hk hx
  have hG := gramM_eq kf xs
  have hu : IsUnit (gramM (E.K.kernel kf.inner) (kf.noise + 1e-8) xs).det := by
    have := hpd.isUnit_det
    rw [← hG] at this; exact this
  set G := gramM (E.K.kernel kf.inner) (kf.noise + 1e-8) xs with hGdef
  have hw : ∀ r, G *ᵥ (G⁻¹ *ᵥ r) = r := fun r => by rw [Matrix.mulVec_mulVec, Matrix.mul_nonsing_inv _ hu, Matrix.one_mulVec]
  have hrow : ∀ (w : Fin xs.length → ℝ) i, (G *ᵥ w) i = kvec (E.K.kernel kf.inner) xs xs[i] ⬝ᵥ w + (kf.noise + 1e-8) * w i := by
    intro w i
    rw [hGdef]
    unfold gramM Matrix.mulVec dotProduct kvec
    simp only [Matrix.of_apply, add_mul, Finset.sum_add_distrib, ite_mul, zero_mul, Finset.sum_ite_eq, Finset.mem_univ, if_true]
    congr 1
    refine Finset.sum_congr rfl fun j _ => ?_
    rw [hk.cov.symm xs[i] xs[j] (hx _ (List.getElem_mem _)) (hx _ (List.getElem_mem _))]
  have key : ∀ i, r1 i - r2 i = (kf.noise + 1e-8) * ((G⁻¹ *ᵥ r1) i - (G⁻¹ *ᵥ r2) i) := by
    intro i
    have a := hrow (G⁻¹ *ᵥ r1) i
    have b := hrow (G⁻¹ *ᵥ r2) i
    rw [hw] at a b
    have := h i
    rw [a, b, this]; ring
  have hdot : kvec (E.K.kernel kf.inner) xs xs[i] ⬝ᵥ (r1 - r2) = (kf.noise + 1e-8) * (kvec (E.K.kernel kf.inner) xs xs[i] ⬝ᵥ ((G⁻¹ *ᵥ r1) - (G⁻¹ *ᵥ r2))) := by
    unfold dotProduct
    rw [Finset.mul_sum]
    refine Finset.sum_congr rfl fun j _ => ?_
    rw [Pi.sub_apply, Pi.sub_apply, key j]; ring
  rw [dotProduct_sub, dotProduct_sub, h i, sub_self, mul_zero] at hdot
  exact sub_eq_zero.1 hdot

end MultiGp

end Limbo
