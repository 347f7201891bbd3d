import Verif.Lemmas.MultiGpFiles

/-!
# C66, down to the files

`MultiGp.saveTo` writes the stored objects of a `MultiGP` with an archive, the sub-models in sub-directories; `MultiGp.loadFrom` reads them into
another object, following `MultiGP::save` and `MultiGP::load` call by call.
-/

namespace Limbo

open Finset Matrix MultiGp

variable {E : GpEnv} {ind : Bool} {B : MgAbs} {st : MultiGpState E} {din dout : Nat}

theorem BinArch.roundTrip (mem : Nat → Byte) : RoundTrip (BinArch.cls mem) ".bin" (fun m m' => m.Fits ∧ m' = m)
    (fun m m' => m.Fits ∧ m.cols = 1 ∧ m' = m) (fun l l' => (∀ m ∈ l, m.Fits ∧ m.cols = 1) ∧ l ≠ [] ∧ l.length < 2 ^ 31 ∧ l' = l) where
  frameMat _ _ _ _ _ hp := if_neg hp
  frameList _ _ _ _ _ hp := if_neg hp
  sameMat _ _ _ _ _ := (if_pos rfl).trans (if_pos rfl).symm
  sameList _ _ _ _ _ := (if_pos rfl).trans (if_pos rfl).symm
  mat m m' fs dir obj h hf := by
    obtain ⟨h1, rfl⟩ := h
    exact (BinArch.loadMat_congr hf).trans (C54_matrix_roundtrip mem fs dir _ h1)
  vec m m' fs dir obj h hf := by
    obtain ⟨h1, h2, rfl⟩ := h
    exact (BinArch.loadVec_congr hf).trans (C54_vector_roundtrip mem fs dir _ h1 h2)
  list l l' fs dir obj h hf := by
    obtain ⟨h1, h2, h3, rfl⟩ := h
    exact (BinArch.loadList_congr hf).trans (C54_list_roundtrip mem fs dir _ h1 h2 h3)

theorem rel_refl {α : Type} {r : α → α → Prop} : ∀ (o : Option α), (∀ x, o = some x → r x x) → Option.Rel r o o
  | none, _ => .none
  | some x, h => .some (h x rfl)

/-- **C66** for the binary archive, file by file: an up-to-date `MultiGP` is saved to a directory and its sub-directories (whatever was in them
before) and loaded from it into any `MultiGP` object.  Loading succeeds and restores the data, the hyper-parameters and every prediction, with
or without recomputing. -/
theorem C66_binary_directory (hE : LawfulEnv E) (hI : StdKernel E.K) (hM : StdMean E.M) (hn : E.KP.optimizeNoise = true → 0 < E.KP.noise)
    (hr : MgReach E ind B st) (hB : B.UpToDate) (hd : DataSet B.xs B.ys din dout) (val : BitVec 64 → ℝ)
    {o : MultiGpObjects BinArch.BMat BinArch.BMat} (ho : BinArch.StorableMulti o) (hs : MultiGp.Stores (BinArch.reading val) o st)
    (mem : Nat → Byte) (fs : Fs Byte) (dir : String) (t : MultiGpState E) (recomp : Bool) (junk : MultiJunk) :
    ∃ t', MultiGp.loadFrom (BinArch.cls mem) (BinArch.reading val) (MultiGp.saveTo (BinArch.cls mem) fs dir o) dir junk t recomp = some t' ∧
      MultiGp.samplesOf t' = some B.xs ∧ MultiGp.observationsOf t' = B.ys ∧
      t'.models.map (fun g => g.kf.hParams E.KP) = st.models.map (fun g => g.kf.hParams E.KP) ∧ E.M.hParams t'.mf = E.M.hParams st.mf ∧
      ∀ v, ∃ m σ, MultiGp.query st v = some (m, σ) ∧ MultiGp.query t' v = some (m, σ) := by
  have T := hr.tracks hE
  refine mg_roundtrip hE hI hM hn hr hB hd (BinArch.roundTrip mem) (BinArch.reading val) (o' := o) ⟨?_, ?_, ?_, ?_⟩ hs fs dir t recomp junk
  · obtain ⟨h1, h2⟩ := ho.vecs o.dims (by simp)
    exact ⟨h1, h2, rfl⟩
  · refine ⟨fun m hm => ho.vecs m (by simp [hm]), ?_, ho.count, rfl⟩
    intro h
    have := hs.observations
    rw [h, T.obs] at this
    exact hd.ys_ne this.symm
  · refine rel_refl _ fun x hx => ?_
    obtain ⟨h1, h2⟩ := ho.vecs x (by simp [hx])
    exact ⟨h1, h2, rfl⟩
  · obtain ⟨hlen, hget⟩ := List.forall₂_iff_get.1 hs.subs
    refine List.forall₂_iff_get.2 ⟨rfl, fun c hc hc0 => ?_⟩
    have hp := ho.subs _ (List.get_mem o.subs ⟨c, hc⟩)
    have hc' : c < st.models.length := by rw [← hlen]; exact hc
    have hsc := hget c hc hc'
    obtain ⟨A, TA, e1, -⟩ := T.subs c _ (List.getElem?_eq_getElem hc')
    show GpObjects.ReadAs _ _ _ (o.subs.get ⟨c, hc⟩) (o.subs.get ⟨c, hc⟩)
    generalize o.subs.get ⟨c, hc⟩ = p at hp hsc ⊢
    refine ⟨?_, ?_, ?_, ⟨hp.mats _ (by simp), rfl⟩, ⟨hp.mats _ (by simp), rfl⟩, ⟨hp.mats _ (by simp), rfl⟩⟩
    · refine rel_refl _ fun x hx => ?_
      obtain ⟨h1, h2⟩ := hp.params x (by simp [hx])
      exact ⟨h1, h2, rfl⟩
    · refine rel_refl _ fun x hx => ?_
      obtain ⟨h1, h2⟩ := hp.params x (by simp [hx])
      exact ⟨h1, h2, rfl⟩
    · refine ⟨fun m hm => hp.params m (by simp [hm]), ?_, hp.count, rfl⟩
      intro h
      have := hsc.samples
      rw [h] at this
      have h2 : st.models[c].samples = B.xs := TA.samples.trans e1
      exact hd.nonempty (h2.symm.trans this.symm)

namespace TextArch

variable {D : Type} {F : NumFmt D}

/-- every number of the matrix is a word that is read as `rnd` says -/
def Reads (F : NumFmt D) (rnd : D → D) (l : List D) : Prop := ∀ x ∈ l, F.Word x ∧ F.parse (F.print x) = some (rnd x)

theorem roundTrip (F : NumFmt D) (mem : Nat → Nat → D) (rnd : D → D) : RoundTrip (TextArch.cls F mem) ".dat"
    (fun m m' => m.Proper ∧ Reads F rnd m.e.flatten ∧ m' = m.round rnd)
    (fun m m' => m.Proper ∧ m.cols = 1 ∧ Reads F rnd m.e.flatten ∧ m' = m.round rnd)
    (fun l l' => l ≠ [] ∧ Reads F rnd l.flatten ∧ l' = l.map fun r => r.map rnd) where
  frameMat _ _ _ _ _ hp := if_neg hp
  frameList _ _ _ _ _ hp := if_neg hp
  sameMat _ _ _ _ _ := (if_pos rfl).trans (if_pos rfl).symm
  sameList _ _ _ _ _ := (if_pos rfl).trans (if_pos rfl).symm
  mat m m' fs dir obj h hf := by
    obtain ⟨h1, h2, rfl⟩ := h
    exact (TextArch.loadMat_congr hf).trans (C55_matrix_roundtrip F mem fs dir obj h1 rnd
      (fun r hr x hx => (h2 x (List.mem_flatten.2 ⟨r, hr, hx⟩)).1) (fun r hr x hx => (h2 x (List.mem_flatten.2 ⟨r, hr, hx⟩)).2))
  vec m m' fs dir obj h hf := by
    obtain ⟨h1, h3, h2, rfl⟩ := h
    show TextArch.loadVec F mem fs dir obj = _
    unfold TextArch.loadVec
    rw [(TextArch.loadMat_congr hf).trans (C55_matrix_roundtrip F mem fs dir obj h1 rnd
      (fun r hr x hx => (h2 x (List.mem_flatten.2 ⟨r, hr, hx⟩)).1) (fun r hr x hx => (h2 x (List.mem_flatten.2 ⟨r, hr, hx⟩)).2)), Option.bind_some]
    exact if_pos h3
  list l l' fs dir obj h hf := by
    obtain ⟨h1, h2, rfl⟩ := h
    exact (TextArch.loadList_congr hf).trans (C55_list_roundtrip F fs dir obj h1 rnd
      (fun r hr x hx => (h2 x (List.mem_flatten.2 ⟨r, hr, hx⟩)).1) (fun r hr x hx => (h2 x (List.mem_flatten.2 ⟨r, hr, hx⟩)).2))

end TextArch

theorem rel_map {α : Type} {r : α → α → Prop} {f : α → α} : ∀ (o : Option α), (∀ x, o = some x → r x (f x)) → Option.Rel r o (o.map f)
  | none, _ => .none
  | some x, h => .some (h x rfl)

/-- what is read for the objects of a GP -/
def GpObjects.round {D : Type} (rnd : D → D) (o : GpObjects (TextArch.TMat D) (List D)) : GpObjects (TextArch.TMat D) (List D) :=
  ⟨o.kernelParams.map (·.round rnd), o.meanParams.map (·.round rnd), o.samples.map fun r => r.map rnd, o.observations.round rnd,
      o.matrixL.round rnd, o.alpha.round rnd⟩

theorem stores_round {D : Type} {rnd : D → D} {val : D → ℝ} {o : GpObjects (TextArch.TMat D) (List D)} {s : GpState E}
    (hs : Gp.Stores (TextArch.reading val) o s) (hv : ∀ x ∈ TextArch.numbers o, val (rnd x) = val x) :
    Gp.Stores (TextArch.reading val) (o.round rnd) s := by
  have mv : ∀ m ∈ o.kernelParams.toList ++ o.meanParams.toList ++ [o.observations, o.matrixL, o.alpha], ∀ r ∈ m.e, ∀ x ∈ r,
      val (rnd x) = val x := by
    intro m hm r hrr x hx
    refine hv x ?_
    unfold TextArch.numbers
    exact List.mem_append_left _ (List.mem_flatMap.2 ⟨m, hm, List.mem_flatten.2 ⟨r, hrr, hx⟩⟩)
  refine ⟨?_, ?_, ?_, ?_, ?_, ?_⟩
  · rw [← hs.kernelParams]
    show (o.kernelParams.map _).map _ = _
    cases hkp : o.kernelParams with
    | none => rfl
    | some p => exact congrArg some (TextArch.vec_round (mv p (by simp [hkp])))
  · rw [← hs.meanParams]
    show (o.meanParams.map _).map _ = _
    cases hkp : o.meanParams with
    | none => rfl
    | some p => exact congrArg some (TextArch.vec_round (mv p (by simp [hkp])))
  · rw [← hs.samples]
    show (o.samples.map _).map _ = _
    rw [List.map_map]
    exact List.map_congr_left fun r hrr => TextArch.map_val fun x hx => hv x (List.mem_append_right _ (List.mem_flatten.2 ⟨r, hrr, hx⟩))
  · have := hs.observations
    rw [← TextArch.mat_round (mv o.observations (by simp))] at this
    exact this
  · have := hs.matrixL
    rw [← TextArch.mat_round (mv o.matrixL (by simp))] at this
    exact this
  · have := hs.alpha
    rw [← TextArch.mat_round (mv o.alpha (by simp))] at this
    exact this

/-- **C66** for the text archive, file by file, as far as its number format allows: if every number is printed as a word without separators
and is read back as a number of the same value, saving an up-to-date `MultiGP` and loading it into any `MultiGP` object succeeds and restores the
data, the hyper-parameters and every prediction.  (C55: the format does lose digits in general.) -/
theorem C66_text_directory {D : Type} (hE : LawfulEnv E) (hI : StdKernel E.K) (hM : StdMean E.M)
    (hn : E.KP.optimizeNoise = true → 0 < E.KP.noise) (hr : MgReach E ind B st) (hB : B.UpToDate) (hd : DataSet B.xs B.ys din dout)
    (val : D → ℝ) {o : MultiGpObjects (TextArch.TMat D) (List D)} (ho : TextArch.StorableMulti o) (hs : MultiGp.Stores (TextArch.reading val) o st)
    (F : TextArch.NumFmt D) (hF : ∀ x ∈ TextArch.numbersMulti o, F.Word x ∧ ∃ y, F.parse (F.print x) = some y ∧ val y = val x)
    (mem : Nat → Nat → D) (fs : Fs Char) (dir : String) (t : MultiGpState E) (recomp : Bool) (junk : MultiJunk) :
    ∃ t', MultiGp.loadFrom (TextArch.cls F mem) (TextArch.reading val) (MultiGp.saveTo (TextArch.cls F mem) fs dir o) dir junk t recomp = some t' ∧
      MultiGp.samplesOf t' = some B.xs ∧ MultiGp.observationsOf t' = B.ys ∧
      t'.models.map (fun g => g.kf.hParams E.KP) = st.models.map (fun g => g.kf.hParams E.KP) ∧ E.M.hParams t'.mf = E.M.hParams st.mf ∧
      ∀ v, ∃ m σ, MultiGp.query st v = some (m, σ) ∧ MultiGp.query t' v = some (m, σ) := by
  classical
  have T := hr.tracks hE
  let rnd : D → D := fun x => (F.parse (F.print x)).getD x
  have hp : ∀ x ∈ TextArch.numbersMulti o, (F.Word x ∧ F.parse (F.print x) = some (rnd x)) ∧ val (rnd x) = val x := by
    intro x hx
    obtain ⟨hw, y, h1, h2⟩ := hF x hx
    have : rnd x = y := by simp only [rnd, h1, Option.getD_some]
    rw [this]
    exact ⟨⟨hw, h1⟩, h2⟩
  have nV : ∀ m ∈ o.dims :: o.meanParams.toList, ∀ x ∈ m.e.flatten, x ∈ TextArch.numbersMulti o := by
    intro m hm x hx
    exact List.mem_append_left _ (List.mem_append_left _ (List.mem_flatMap.2 ⟨m, hm, hx⟩))
  have nO : ∀ x ∈ o.observations.flatten, x ∈ TextArch.numbersMulti o :=
    fun x hx => List.mem_append_left _ (List.mem_append_right _ hx)
  have nS : ∀ p ∈ o.subs, ∀ x ∈ TextArch.numbers p, x ∈ TextArch.numbersMulti o :=
    fun p hpp x hx => List.mem_append_right _ (List.mem_flatMap.2 ⟨p, hpp, hx⟩)
  let o' : MultiGpObjects (TextArch.TMat D) (List D) :=
    ⟨o.dims.round rnd, o.observations.map fun r => r.map rnd, o.meanParams.map (·.round rnd), o.subs.map (·.round rnd)⟩
  obtain ⟨hlen, hget⟩ := List.forall₂_iff_get.1 hs.subs
  have hs' : MultiGp.Stores (TextArch.reading val) o' st := by
    refine ⟨?_, ?_, ?_, ?_⟩
    · rw [← hs.dims]
      exact TextArch.vec_round fun r hrr x hx => (hp x (nV _ (by simp) x (List.mem_flatten.2 ⟨r, hrr, hx⟩))).2
    · rw [← hs.observations]
      show (o.observations.map _).map _ = _
      rw [List.map_map]
      exact List.map_congr_left fun r hrr => TextArch.map_val fun x hx => (hp x (nO x (List.mem_flatten.2 ⟨r, hrr, hx⟩))).2
    · rw [← hs.meanParams]
      show (o.meanParams.map _).map _ = _
      cases hkp : o.meanParams with
      | none => rfl
      | some p =>
        exact congrArg some (TextArch.vec_round fun r hrr x hx => (hp x (nV p (by simp [hkp]) x (List.mem_flatten.2 ⟨r, hrr, hx⟩))).2)
    · refine List.forall₂_iff_get.2 ⟨by simp [o', hlen], fun c hc hc' => ?_⟩
      have h0 : c < o.subs.length := by simpa [o'] using hc
      have e : o'.subs.get ⟨c, hc⟩ = (o.subs.get ⟨c, h0⟩).round rnd := by simp [o']
      rw [e]
      exact stores_round (hget c h0 hc') fun x hx => (hp x (nS _ (List.get_mem _ _) x hx)).2
  refine mg_roundtrip hE hI hM hn hr hB hd (TextArch.roundTrip F mem rnd) (TextArch.reading val) (o' := o') ⟨?_, ?_, ?_, ?_⟩ hs' fs dir t recomp junk
  · obtain ⟨h1, h2⟩ := ho.vecs o.dims (by simp)
    exact ⟨h1, h2, fun x hx => (hp x (nV _ (by simp) x hx)).1, rfl⟩
  · refine ⟨?_, fun x hx => (hp x (nO x hx)).1, rfl⟩
    intro h
    have := hs.observations
    rw [h, T.obs] at this
    exact hd.ys_ne this.symm
  · refine rel_map _ fun x hx => ?_
    obtain ⟨h1, h2⟩ := ho.vecs x (by simp [hx])
    exact ⟨h1, h2, fun y hy => (hp y (nV x (by simp [hx]) y hy)).1, rfl⟩
  · refine List.forall₂_iff_get.2 ⟨by simp [o'], fun c hc hc1 => ?_⟩
    have e : o'.subs.get ⟨c, hc1⟩ = (o.subs.get ⟨c, hc⟩).round rnd := by simp [o']
    rw [e]
    have hmem := List.get_mem o.subs ⟨c, hc⟩
    have hsp := ho.subs _ hmem
    have hc' : c < st.models.length := by rw [← hlen]; exact hc
    have hsc := hget c hc hc'
    obtain ⟨A, TA, e1, -⟩ := T.subs c _ (List.getElem?_eq_getElem hc')
    generalize o.subs.get ⟨c, hc⟩ = p at hmem hsp hsc ⊢
    have nm : ∀ m ∈ p.kernelParams.toList ++ p.meanParams.toList ++ [p.observations, p.matrixL, p.alpha], TextArch.Reads F rnd m.e.flatten := by
      intro m hm x hx
      exact (hp x (nS p hmem x (List.mem_append_left _ (List.mem_flatMap.2 ⟨m, hm, hx⟩)))).1
    refine ⟨?_, ?_, ?_, ⟨hsp.mats _ (by simp), nm _ (by simp), rfl⟩, ⟨hsp.mats _ (by simp), nm _ (by simp), rfl⟩,
      ⟨hsp.mats _ (by simp), nm _ (by simp), rfl⟩⟩
    · refine rel_map _ fun x hx => ?_
      obtain ⟨h1, h2⟩ := hsp.params x (by simp [hx])
      exact ⟨h1, h2, nm _ (by simp [hx]), rfl⟩
    · refine rel_map _ fun x hx => ?_
      obtain ⟨h1, h2⟩ := hsp.params x (by simp [hx])
      exact ⟨h1, h2, nm _ (by simp [hx]), rfl⟩
    · refine ⟨?_, fun x hx => (hp x (nS p hmem x (List.mem_append_right _ hx))).1, rfl⟩
      intro h
      have := hsc.samples
      rw [h] at this
      have h2 : st.models[c].samples = B.xs := TA.samples.trans e1
      exact hd.nonempty (h2.symm.trans this.symm)

/-! ### a `MultiGP` with two outputs whose numbers are doubles -/

theorem exM_numbers (j : MultiJunk) : ∃ s, MultiGp.compute j (MultiGp.new exEnvF) [[0]] [[1, 1]] true = some s ∧
    MgReach exEnvF false ⟨[[0]], [[1, 1]], true, true, true, true, true⟩ s ∧ s.dimIn = 1 ∧ s.dimOut = 2 ∧ s.models.length = 2 ∧
    ∀ (c : Nat) (g : GpState exEnvF), s.models[c]? = some g → ExNumbers g := by
  have hE := exEnvF_lawful
  have hd : DataSet [[(0:ℝ)]] [[1, 1]] 1 2 := ⟨by simp, by simp, by simp, by simp, by norm_num, by norm_num⟩
  have hr0 : MgReach exEnvF false .init (MultiGp.new exEnvF) := .new (fun h => by cases h)
  obtain ⟨s, h0, M0, hmf, h1, h2, h3, hk, -⟩ := compute_ok hE (hr0.tracks hE) j hd true false
  refine ⟨s, h0, hr0.step (op := .compute [[0]] [[1, 1]] true) trivial h0, h1, h2, h3, ?_⟩
  intro c g hg
  obtain ⟨k0, -⟩ := hk (Or.inr rfl) c g hg
  rw [kernAt_nil rfl] at k0
  obtain ⟨A, T, e1, e2, -, e4, -, e6, -⟩ := M0.subs c g hg
  have hc : c < 2 := by obtain ⟨h, -⟩ := List.getElem?_eq_some_iff.1 hg; omega
  have hy : A.ys = [[1]] := by
    rw [e6 rfl]
    show [[at' [1, 1] c - 0]] = _
    rcases (by omega : c = 0 ∨ c = 1) with rfl | rfl <;> simp [at']
  exact exF_of T e1 hy (e2 rfl) (e4 rfl) k0

theorem exM_forall {R : Reading M V} {p : GpObjects M V} {s : MultiGpState exEnvF} (hl : s.models.length = 2)
    (h : ∀ (c : Nat) (g : GpState exEnvF), s.models[c]? = some g → Gp.Stores R p g) : List.Forall₂ (Gp.Stores R) [p, p] s.models := by
  refine List.forall₂_iff_get.2 ⟨by simp [hl], fun c hc hc' => ?_⟩
  have e : [p, p].get ⟨c, hc⟩ = p := by
    rcases (by simp at hc; omega : c = 0 ∨ c = 1) with rfl | rfl <;> rfl
  rw [e]
  exact h c _ (List.getElem?_eq_getElem hc')

/-- The hypotheses of C66_binary_directory. -/
example (j : MultiJunk) : ∃ (s : MultiGpState exEnvF) (o : MultiGpObjects BinArch.BMat BinArch.BMat),
    MgReach exEnvF false ⟨[[0]], [[1, 1]], true, true, true, true, true⟩ s ∧ BinArch.StorableMulti o ∧
    MultiGp.Stores (BinArch.reading doubleVal) o s := by
  obtain ⟨s, -, hr, h1, h2, h3, hN⟩ := exM_numbers j
  have T := hr.tracks exEnvF_lawful
  have hN0 := hN 0 _ (List.getElem?_eq_getElem (by omega))
  refine ⟨s, ⟨⟨2, 1, [0x3ff0000000000000#64, 0x4000000000000000#64]⟩, [⟨2, 1, [0x3ff0000000000000#64, 0x3ff0000000000000#64]⟩], none,
    [exObjB, exObjB]⟩, hr, ⟨?_, by decide, ?_⟩, ?_, ?_, rfl, exM_forall h3 fun c g hg => (exObjB_stores (hN c g hg)).2⟩
  · intro m hm
    simp only [Option.toList, List.nil_append, List.mem_cons, List.not_mem_nil, or_false] at hm
    rcases hm with rfl | rfl <;> exact ⟨⟨by decide, by decide, by decide, by decide⟩, rfl⟩
  · intro p hp
    simp only [List.mem_cons, List.not_mem_nil, or_false, or_self] at hp
    rw [hp]
    exact (exObjB_stores hN0).1
  · rw [h1, h2]
    show [doubleVal _, doubleVal _] = _
    rw [doubleVal_one, doubleVal_two]; norm_num
  · rw [T.obs]
    show [[doubleVal _, doubleVal _]] = _
    rw [doubleVal_one]

/-- The hypotheses of C66_text_directory. -/
example (j : MultiJunk) : ∃ (s : MultiGpState exEnvF) (o : MultiGpObjects (TextArch.TMat ℚ) (List ℚ)) (F : TextArch.NumFmt ℚ),
    MgReach exEnvF false ⟨[[0]], [[1, 1]], true, true, true, true, true⟩ s ∧ TextArch.StorableMulti o ∧
    MultiGp.Stores (TextArch.reading fun q : ℚ => (q : ℝ)) o s ∧
    ∀ x ∈ TextArch.numbersMulti o, F.Word x ∧ ∃ y, F.parse (F.print x) = some y ∧ (y : ℝ) = x := by
  obtain ⟨s, -, hr, h1, h2, h3, hN⟩ := exM_numbers j
  have T := hr.tracks exEnvF_lawful
  have hN0 := hN 0 _ (List.getElem?_eq_getElem (by omega))
  refine ⟨s, ⟨⟨2, 1, [[1], [2]]⟩, [[1, 1]], none, [exObjT, exObjT]⟩, exFmt, hr, ⟨?_, ?_⟩,
    ⟨?_, ?_, rfl, exM_forall h3 fun c g hg => (exObjT_stores (hN c g hg)).2⟩, fun x _ => exFmt_ok x⟩
  · intro m hm
    simp only [Option.toList, List.mem_cons, List.not_mem_nil, or_false] at hm
    subst hm
    exact ⟨⟨by decide, by decide, rfl, by simp⟩, rfl⟩
  · intro p hp
    simp only [List.mem_cons, List.not_mem_nil, or_false, or_self] at hp
    rw [hp]
    exact (exObjT_stores hN0).1
  · rw [h1, h2]; simp [TextArch.reading]
  · rw [T.obs]; simp [TextArch.reading]

end Limbo
