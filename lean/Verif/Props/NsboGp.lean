import Verif.Spec.NsboGp
import Verif.Props.EhviGp

/-! # C121: NSBO with Gaussian processes evaluates the most uncertain point of its front -/

namespace Limbo

open Gp Ehvi

variable {E : GpEnv}

theorem allFinite_reals {O : List (List XR)} (h : ∀ v ∈ O, AllFinite v) : ∃ Y : List (List ℝ), O = Y.map fun y => y.map XR.fin := by
  induction O with
  | nil => exact ⟨[], rfl⟩
  | cons v vs ih =>
    obtain ⟨Y, e⟩ := ih fun w hw => h w (List.mem_cons_of_mem _ hw)
    obtain ⟨y, ey⟩ : ∃ y : List ℝ, v = y.map XR.fin := by
      have := h v List.mem_cons_self
      clear h e ih
      induction v with
      | nil => exact ⟨[], rfl⟩
      | cons a as ih =>
        obtain ⟨y, e⟩ := ih fun b hb => this b (List.mem_cons_of_mem _ hb)
        have ha := this a List.mem_cons_self
        match a, ha with
        | Xt.fin a, _ => exact ⟨a :: y, by rw [e]; rfl⟩
    exact ⟨y :: Y, by rw [e, ey]; rfl⟩

/-- all models of NSBO report the same variance -/
theorem nsbo_sigma (hE : LawfulEnv E) {S O : List (List XR)} {d dobj : Nat} (hl : S.length = O.length) (hO : ∀ v ∈ O, v.length = dobj)
    (hF : ∀ v ∈ O, AllFinite v) (hd : ∀ s, S.head? = some s → s.length = d) (hne : S ≠ []) {ms : List (GpState E)}
    (hfit : FittedTo fixData dobj S O ms) (h0 : 0 < dobj) :
    ∃ xs : List (List ℝ), S = xs.map (fun x => x.map XR.fin) ∧ xs ≠ [] ∧ ∀ m ∈ ms, ∀ v : List ℝ, gpSigma0 m (v.map XR.fin) = XR.fin (objVar E d xs v) := by
  obtain ⟨Y, rfl⟩ := allFinite_reals hF
  have z0 : ∀ j, S.zip (column j (Y.map fun y => y.map XR.fin)) ≠ [] := by
    intro j h
    have := congrArg List.length h
    rw [List.length_zip, column_length, ← hl, Nat.min_self] at this
    exact hne (List.length_eq_zero_iff.1 this)
  have hlY : S.length = Y.length := by simpa using hl
  have hYl : ∀ y ∈ Y, y.length = dobj := fun y hy => by simpa using hO _ (List.mem_map.2 ⟨y, hy, rfl⟩)
  have hS : ∃ xs : List (List ℝ), S = xs.map (fun x => x.map XR.fin) := by
    have hm : ms[0]? = some (ms[0]'(by rw [hfit.1]; exact h0)) := List.getElem?_eq_getElem _
    obtain ⟨xs, ys0, hl0, e0, -⟩ := (fixData_rel (hfit.2 0 _ hm) (z0 0)).1.fits hE
    have h1 := congrArg (List.map Prod.fst) e0
    rw [List.map_fst_zip (by rw [column_length]; exact hl.le)] at h1
    refine ⟨xs, ?_⟩
    rw [h1, finPairs, List.map_map]
    have : (Prod.fst ∘ fun p : List ℝ × List ℝ => (p.1.map XR.fin, p.2.map XR.fin)) = (fun x : List ℝ => x.map XR.fin) ∘ Prod.fst := rfl
    rw [this, ← List.map_map, List.map_fst_zip hl0.le]
  obtain ⟨xs, rfl⟩ := hS
  have hxs : xs ≠ [] := by rintro rfl; exact hne rfl
  have hxl : xs.length = Y.length := by simpa using hlY
  refine ⟨xs, rfl, hxs, fun m hm v => ?_⟩
  obtain ⟨j, hj, rfl⟩ := List.getElem_of_mem hm
  have f := fixData_rel (hfit.2 j _ (List.getElem?_eq_getElem hj)) (z0 j)
  have hcol : (xs.map fun x => x.map XR.fin).zip (column j (Y.map fun y => y.map XR.fin)) = finPairs xs ((Y.map fun y => y.getD j 0).map fun y => [y]) := by
    rw [← zip_finPairs]
    congr 1
    simp only [column, List.map_map]
    refine List.map_congr_left fun y hy => ?_
    have hjy : j < y.length := by rw [hYl y hy, ← hfit.1]; exact hj
    simp [Function.comp, List.getElem?_eq_getElem hjy]
  rw [hcol] at f
  refine ((obj_predicts hE hxs (by simpa using hxl) f ?_).2 v).2
  intro q hq
  have := hd (q.map XR.fin) (by rw [List.head?_map, hq]; rfl)
  simpa using this

/-- **C121**: every point `Nsbo::optimize` evaluates after the initial ones is a point of the front its evolutionary algorithm returned (on models fitted to
all data before it), and no point of that front has a larger posterior variance given the points evaluated so far.  The values observed there play no part
in the choice among the points of the front. -/
theorem C121_most_uncertain (hE : LawfulEnv E) (P : MuParams XR (GpState E)) (ea : BoState XR (MM XR (GpState E)) → Nat → List (List XR × List XR))
    (hP : UsesNsboGp P ea) (ci : Int) (ops : List (MuOp XR (GpState E))) (f : StateFun XR (MM XR (GpState E))) (afun : List XR → XR) (reset : Bool)
    (n : Nat) (st st' : BoState XR (MM XR (GpState E))) (h : muOps P ops (newMulti P ci) = some st)
    (h' : muOptimize .nsbo P f afun reset n st = .ok st') (dobj : Nat) (h0 : 0 < dobj) (hO : ∀ v ∈ st'.observations, v.length = dobj)
    (d : Nat) (hd : ∀ s, st'.samples.head? = some s → s.length = d) :
    ∃ n0 : Nat, (st'.samples.length : Int) = n0 + st'.currentIteration ∧ ∀ j x, n0 ≤ j → st'.samples[j]? = some x →
      ∃ (s : BoState XR (MM XR (GpState E))) (xs : List (List ℝ)) (v : List ℝ),
        s.samples = st'.samples.take j ∧ s.observations = st'.observations.take j ∧ FittedTo fixData dobj s.samples s.observations s.model.models ∧
        st'.samples.take j = xs.map (fun x => x.map XR.fin) ∧ xs ≠ [] ∧ x = v.map XR.fin ∧ (∃ y, (x, y) ∈ ea s f.dimIn) ∧
        ∀ p ∈ ea s f.dimIn, ∃ q : List ℝ, p.1 = q.map XR.fin ∧ objVar E d xs q ≤ objVar E d xs v := by
  have hI := muOps_inv (muOp_data P) ops _ st (newBo_inv P.bo ci _) h
  have hI' := muOp_data P (.optimize .nsbo f afun reset n) st hI
  rw [show muOp P (.optimize .nsbo f afun reset n) st = .ok st' from h'] at hI'
  obtain ⟨b1, h1, h2⟩ := Res.andThen_ok h'
  have hI1 := boInit_inv P.bo f reset st hI
  rw [h1] at hI1
  obtain ⟨hb1, k, hn⟩ := muLoop_ok h2
  obtain ⟨xs0, -, l1, -, -, a1, -, a3, -⟩ := hn.sum
  have hc0 : b1.currentIteration = 0 := boInit_currentIteration h1
  have hL : LearnsFresh P.ops (fixData (E := E)) := by
    obtain ⟨u, jC, jA, hp, e⟩ := hP.ops
    rw [e]; exact gp_learns hE u jC jA hp
  have key : ∀ s : BoState XR (MM XR (GpState E)), s.samples ≠ [] → s.samples <+: st'.samples → s.observations <+: st'.observations →
      s.samples.length = s.observations.length → FittedTo fixData dobj s.samples s.observations s.model.models →
      ∃ xs : List (List ℝ), s.samples = xs.map (fun x => x.map XR.fin) ∧ xs ≠ [] ∧
        ∀ m ∈ s.model.models, ∀ v : List ℝ, gpSigma0 m (v.map XR.fin) = XR.fin (objVar E d xs v) := by
    intro s hs hp1 hp2 hlen hfit
    refine nsbo_sigma hE hlen (fun v hv => hO v (hp2.subset hv)) (fun v hv => hI'.fin v (hp2.subset hv)) ?_ hs hfit h0
    intro a ha
    refine hd a ?_
    obtain ⟨t, ht⟩ := hp1
    rw [← ht]
    cases hS : s.samples with
    | nil => exact absurd hS hs
    | cons b l => rw [hS] at ha; exact ha
  refine ⟨b1.samples.length, by rw [a1, a3, hc0, List.length_append, l1]; push_cast; ring, fun j x hj hx => ?_⟩
  obtain ⟨s, e1, e2, hfit, hin, hnd⟩ := hn.nsbo_choice hL hP.pset hP.sferes (d := dobj) (by
    intro s hs hp1 hp2 hlen hfit m hm p hp
    obtain ⟨xs, -, -, hv⟩ := key s hs hp1 hp2 hlen hfit
    obtain ⟨q, hq⟩ := (hP.finite _ _ p hp).exists_map
    rw [hP.sigma, hq, hv m hm q]
    rfl) hI1.len hO j x hj hx
  have hjl := (List.getElem?_eq_some_iff.1 hx).1
  have hsne : s.samples ≠ [] := by
    rw [e1]
    intro h0'
    have := congrArg List.length h0'
    rw [List.length_take, List.length_nil] at this
    have := List.length_pos_iff.2 hb1
    omega
  obtain ⟨xs, hxs, hxne, hv⟩ := key s hsne (by rw [e1]; exact List.take_prefix _ _) (by rw [e2]; exact List.take_prefix _ _)
    (by rw [e1, e2, List.length_take, List.length_take, hI'.len]) hfit
  obtain ⟨y, hy⟩ := hin
  obtain ⟨v, rfl⟩ := (hP.finite _ _ _ hy).exists_map
  refine ⟨s, xs, v, e1, e2, hfit, by rw [← e1]; exact hxs, hxne, rfl, ⟨y, hy⟩, fun p hp => ?_⟩
  obtain ⟨q, hq⟩ := (hP.finite _ _ p hp).exists_map
  refine ⟨q, hq, ?_⟩
  by_contra hcon
  refine hnd p hp ?_
  rw [hP.sigma, hq]
  have hm : ∀ (w : List ℝ) (i : Nat) (x : XR), (s.model.models.map fun m => gpSigma0 m (w.map XR.fin))[i]? = some x → x = XR.fin (objVar E d xs w) := by
    intro w i x hx
    rw [List.getElem?_map, Option.map_eq_some_iff] at hx
    obtain ⟨m, hm, rfl⟩ := hx
    exact hv m (List.mem_of_getElem? hm) w
  constructor
  · intro i a b ha hb
    rw [hm q i a ha, hm v i b hb, XR.le_fin]
    exact (not_le.1 hcon).le
  · have hlen : 0 < s.model.models.length := by rw [hfit.1]; exact h0
    refine ⟨0, XR.fin (objVar E d xs q), XR.fin (objVar E d xs v), ?_, ?_, (XR.lt_fin _ _).2 (not_le.1 hcon)⟩
    · rw [List.getElem?_map, List.getElem?_eq_getElem hlen, Option.map_some, hv _ (List.getElem_mem hlen) q]
    · rw [List.getElem?_map, List.getElem?_eq_getElem hlen, Option.map_some, hv _ (List.getElem_mem hlen) v]

end Limbo
