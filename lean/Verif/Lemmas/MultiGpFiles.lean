import Verif.Props.MultiGp
import Verif.Props.GpFiles
import Verif.Spec.MultiGpFiles
import Std.Data.String.ToNat

/-! Saving a `MultiGP` to files and loading it again. -/

namespace Limbo

open Finset Matrix MultiGp

variable {E : GpEnv} {ind : Bool} {B : MgAbs} {st : MultiGpState E} {din dout : Nat} {χ M V : Type}

/-! ### names of files -/

def fileName (ext dir obj : String) : String := dir ++ "/" ++ obj ++ ext

theorem split_at {l1 l2 r1 r2 : List Char} {c : Char} (h1 : c ∉ l1) (h2 : c ∉ l2) (h : l1 ++ c :: r1 = l2 ++ c :: r2) : l1 = l2 := by
  induction l1 generalizing l2 with
  | nil =>
    cases l2 with
    | nil => rfl
    | cons a l => simp only [List.nil_append, List.cons_append, List.cons.injEq] at h; exact absurd (by rw [h.1]; simp) h2
  | cons a l ih =>
    cases l2 with
    | nil => simp only [List.nil_append, List.cons_append, List.cons.injEq] at h; exact absurd (by rw [← h.1]; simp) h1
    | cons b l' =>
      simp only [List.cons_append, List.cons.injEq] at h
      rw [h.1, ih (fun hc => h1 (by simp [hc])) (fun hc => h2 (by simp [hc])) h.2]

theorem slash_digits (i : Nat) : '/' ∉ (toString i).toList := by
  intro h
  rw [show toString i = Nat.repr i from rfl, Nat.repr_eq_ofList_toDigits, String.toList_ofList] at h
  have := Nat.isDigit_of_mem_toDigits (by decide) (by decide) h
  exact absurd this (by decide)

/-- files of different sub-directories are different -/
theorem subDir_ne {ext dir a b : String} {i j : Nat} (hij : i ≠ j) : fileName ext (subDir dir i) a ≠ fileName ext (subDir dir j) b := by
  intro h
  apply hij
  have h := congrArg String.toList h
  simp only [fileName, subDir, String.toList_append, List.append_assoc, List.append_cancel_left_eq] at h
  have e : ("/" : String).toList = ['/'] := rfl
  rw [e] at h
  have := split_at (slash_digits i) (slash_digits j) (by simpa using h)
  exact Nat.repr_injective (String.toList_inj.1 this)

/-- a file of the directory is no file of a sub-directory, if its name does not begin with `g` -/
theorem dir_ne {ext dir a b : String} {i : Nat} (ha : a.toList ≠ []) (hg : a.toList.head? ≠ some 'g') :
    fileName ext dir a ≠ fileName ext (subDir dir i) b := by
  intro h
  have h := congrArg String.toList h
  simp only [fileName, subDir, String.toList_append, List.append_assoc, List.append_cancel_left_eq] at h
  have e : ("/" : String).toList = ['/'] := rfl
  have e' : ("/gp_" : String).toList = ['/', 'g', 'p', '_'] := rfl
  rw [e, e'] at h
  obtain ⟨c, l, hcl⟩ := List.exists_cons_of_ne_nil ha
  rw [hcl] at h hg
  simp only [List.cons_append, List.nil_append, List.cons.injEq, true_and] at h
  exact hg (by simp [h.1])

theorem fileName_inj {ext dir a b : String} : fileName ext dir a = fileName ext dir b ↔ a = b :=
  ⟨fun h => String.append_right_inj _ |>.1 (String.append_left_inj _ |>.1 h), fun h => by rw [h]⟩

/-! ### archives -/

/-- an archive that keeps every object in a file of its own: `mat m m'` means that a saved `m` is read as `m'` -/
structure RoundTrip (Ar : ArchiveClass χ M V) (ext : String) (mat vec : M → M → Prop) (lst : List V → List V → Prop) : Prop where
  frameMat : ∀ fs dir obj m p, p ≠ fileName ext dir obj → Ar.saveMat fs dir obj m p = fs p
  frameList : ∀ fs dir obj l p, p ≠ fileName ext dir obj → Ar.saveList fs dir obj l p = fs p
  sameMat : ∀ fs fs' dir obj m, Ar.saveMat fs dir obj m (fileName ext dir obj) = Ar.saveMat fs' dir obj m (fileName ext dir obj)
  sameList : ∀ fs fs' dir obj m, Ar.saveList fs dir obj m (fileName ext dir obj) = Ar.saveList fs' dir obj m (fileName ext dir obj)
  mat : ∀ m m' fs dir obj, mat m m' → fs (fileName ext dir obj) = Ar.saveMat fs dir obj m (fileName ext dir obj) →
    Ar.loadMat fs dir obj = some m'
  vec : ∀ m m' fs dir obj, vec m m' → fs (fileName ext dir obj) = Ar.saveMat fs dir obj m (fileName ext dir obj) →
    Ar.loadVec fs dir obj = some m'
  list : ∀ l l' fs dir obj, lst l l' → fs (fileName ext dir obj) = Ar.saveList fs dir obj l (fileName ext dir obj) →
    Ar.loadList fs dir obj = some l'

/-- the objects of a GP and what they are read as -/
structure GpObjects.ReadAs (mat vec : M → M → Prop) (lst : List V → List V → Prop) (o o' : GpObjects M V) : Prop where
  kernelParams : Option.Rel vec o.kernelParams o'.kernelParams
  meanParams : Option.Rel vec o.meanParams o'.meanParams
  samples : lst o.samples o'.samples
  observations : mat o.observations o'.observations
  matrixL : mat o.matrixL o'.matrixL
  alpha : mat o.alpha o'.alpha

variable {Ar : ArchiveClass χ M V} {ext : String} {mat vec : M → M → Prop} {lst : List V → List V → Prop}

theorem saveTo_frame (h : RoundTrip Ar ext mat vec lst) (fs : Fs χ) (dir : String) (o : GpObjects M V) (p : String)
    (hp : ∀ obj, p ≠ fileName ext dir obj) : Gp.saveTo Ar fs dir o p = fs p := by
  obtain ⟨kp, mp, xs, ys, L, al⟩ := o
  unfold Gp.saveTo
  simp only
  rw [h.frameMat _ _ _ _ _ (hp _), h.frameMat _ _ _ _ _ (hp _), h.frameMat _ _ _ _ _ (hp _), h.frameList _ _ _ _ _ (hp _)]
  cases kp <;> cases mp <;> simp only
  · exact h.frameMat _ _ _ _ _ (hp _)
  · exact h.frameMat _ _ _ _ _ (hp _)
  · rw [h.frameMat _ _ _ _ _ (hp _), h.frameMat _ _ _ _ _ (hp _)]

/-- the files after `save` -/
theorem saveTo_files (h : RoundTrip Ar ext mat vec lst) (fs : Fs χ) (dir : String) (o : GpObjects M V) :
    let g := Gp.saveTo Ar fs dir o
    g (fileName ext dir "samples") = Ar.saveList g dir "samples" o.samples (fileName ext dir "samples") ∧
    g (fileName ext dir "observations") = Ar.saveMat g dir "observations" o.observations (fileName ext dir "observations") ∧
    g (fileName ext dir "matrixL") = Ar.saveMat g dir "matrixL" o.matrixL (fileName ext dir "matrixL") ∧
    g (fileName ext dir "alpha") = Ar.saveMat g dir "alpha" o.alpha (fileName ext dir "alpha") ∧
    (∀ p, o.kernelParams = some p → g (fileName ext dir "kernel_params") = Ar.saveMat g dir "kernel_params" p (fileName ext dir "kernel_params")) ∧
    (∀ p, o.meanParams = some p → g (fileName ext dir "mean_params") = Ar.saveMat g dir "mean_params" p (fileName ext dir "mean_params")) := by
  have key : ∀ a b, a ≠ b → fileName ext dir a ≠ fileName ext dir b := fun a b hab e => hab (fileName_inj.1 e)
  obtain ⟨kp, mp, xs, ys, L, al⟩ := o
  intro g
  have hg : g = Gp.saveTo Ar fs dir ⟨kp, mp, xs, ys, L, al⟩ := rfl
  unfold Gp.saveTo at hg
  simp only at hg
  refine ⟨?_, ?_, ?_, ?_, ?_, ?_⟩
  · rw [h.sameList g _ dir "samples" xs]
    conv_lhs => rw [hg]
    rw [h.frameMat _ _ _ _ _ (key _ _ (by decide)), h.frameMat _ _ _ _ _ (key _ _ (by decide)), h.frameMat _ _ _ _ _ (key _ _ (by decide))]
  · rw [h.sameMat g _ dir "observations" ys]
    conv_lhs => rw [hg]
    rw [h.frameMat _ _ _ _ _ (key _ _ (by decide)), h.frameMat _ _ _ _ _ (key _ _ (by decide))]
  · rw [h.sameMat g _ dir "matrixL" L]
    conv_lhs => rw [hg]
    rw [h.frameMat _ _ _ _ _ (key _ _ (by decide))]
  · rw [h.sameMat g _ dir "alpha" al]
    conv_lhs => rw [hg]
  · intro p hp
    simp only at hp
    subst hp
    rw [h.sameMat g fs dir "kernel_params" p]
    conv_lhs => rw [hg]
    rw [h.frameMat _ _ _ _ _ (key _ _ (by decide)), h.frameMat _ _ _ _ _ (key _ _ (by decide)), h.frameMat _ _ _ _ _ (key _ _ (by decide)),
      h.frameList _ _ _ _ _ (key _ _ (by decide))]
    cases mp with
    | none => rfl
    | some q => exact h.frameMat _ _ _ _ _ (key _ _ (by decide))
  · intro p hp
    simp only at hp
    subst hp
    conv_lhs => rw [hg]
    rw [h.frameMat _ _ _ _ _ (key _ _ (by decide)), h.frameMat _ _ _ _ _ (key _ _ (by decide)), h.frameMat _ _ _ _ _ (key _ _ (by decide)),
      h.frameList _ _ _ _ _ (key _ _ (by decide))]
    exact h.sameMat _ _ _ _ _

/-- what is read in a directory whose files are those of a saved GP -/
theorem saveTo_reads (h : RoundTrip Ar ext mat vec lst) (fs fs' : Fs χ) (dir : String) {o o' : GpObjects M V} (ho : o.ReadAs mat vec lst o')
    (heq : ∀ obj, fs' (fileName ext dir obj) = Gp.saveTo Ar fs dir o (fileName ext dir obj)) :
    Ar.loadList fs' dir "samples" = some o'.samples ∧ Ar.loadMat fs' dir "observations" = some o'.observations ∧
    Ar.loadMat fs' dir "matrixL" = some o'.matrixL ∧ Ar.loadMat fs' dir "alpha" = some o'.alpha ∧
    (∀ p, o'.kernelParams = some p → Ar.loadVec fs' dir "kernel_params" = some p) ∧
    (∀ p, o'.meanParams = some p → Ar.loadVec fs' dir "mean_params" = some p) := by
  obtain ⟨f1, f2, f3, f4, f5, f6⟩ := saveTo_files h fs dir o
  refine ⟨?_, ?_, ?_, ?_, ?_, ?_⟩
  · exact h.list _ _ _ _ _ ho.samples (by rw [heq, f1]; exact h.sameList _ _ _ _ _)
  · exact h.mat _ _ _ _ _ ho.observations (by rw [heq, f2]; exact h.sameMat _ _ _ _ _)
  · exact h.mat _ _ _ _ _ ho.matrixL (by rw [heq, f3]; exact h.sameMat _ _ _ _ _)
  · exact h.mat _ _ _ _ _ ho.alpha (by rw [heq, f4]; exact h.sameMat _ _ _ _ _)
  · intro p hp
    have hr := ho.kernelParams
    rw [hp] at hr
    cases hk : o.kernelParams with
    | none => rw [hk] at hr; cases hr
    | some q =>
      rw [hk] at hr
      cases hr with
      | some hr => exact h.vec _ _ _ _ _ hr (by rw [heq, f5 q hk]; exact h.sameMat _ _ _ _ _)
  · intro p hp
    have hr := ho.meanParams
    rw [hp] at hr
    cases hk : o.meanParams with
    | none => rw [hk] at hr; cases hr
    | some q =>
      rw [hk] at hr
      cases hr with
      | some hr => exact h.vec _ _ _ _ _ hr (by rw [heq, f6 q hk]; exact h.sameMat _ _ _ _ _)

theorem saveSubs_frame (h : RoundTrip Ar ext mat vec lst) (dir : String) (os : List (GpObjects M V)) (i : Nat) (fs : Fs χ) (p : String)
    (hp : ∀ j, i ≤ j → ∀ obj, p ≠ fileName ext (subDir dir j) obj) : saveSubs Ar dir i os fs p = fs p := by
  induction os generalizing i fs with
  | nil => rfl
  | cons o os ih =>
    unfold saveSubs
    rw [ih (i + 1) _ fun j hj => hp j (by omega), saveTo_frame h _ _ _ _ (hp i (le_refl _))]

/-- the files of sub-model `c` -/
theorem saveSubs_files (h : RoundTrip Ar ext mat vec lst) (dir : String) (os : List (GpObjects M V)) (i : Nat) (fs : Fs χ) (c : Nat)
    (o : GpObjects M V) (hc : os[c]? = some o) : ∃ fs0 : Fs χ, ∀ obj, saveSubs Ar dir i os fs (fileName ext (subDir dir (i + c)) obj) =
      Gp.saveTo Ar fs0 (subDir dir (i + c)) o (fileName ext (subDir dir (i + c)) obj) := by
  induction os generalizing i fs c with
  | nil => cases hc
  | cons o1 os ih =>
    unfold saveSubs
    cases c with
    | zero =>
      simp only [List.getElem?_cons_zero, Option.some.injEq] at hc
      subst hc
      refine ⟨fs, fun obj => ?_⟩
      exact saveSubs_frame h dir os (i + 1) _ _ fun j hj obj' => subDir_ne (by omega)
    | succ c =>
      rw [List.getElem?_cons_succ] at hc
      have := ih (i + 1) (Gp.saveTo Ar fs (subDir dir i) o1) c hc
      rw [show i + 1 + c = i + (c + 1) from by omega] at this
      exact this

/-- the objects of a `MultiGP` and what they are read as -/
structure MultiGpObjects.ReadAs (mat vec : M → M → Prop) (lst : List V → List V → Prop) (o o' : MultiGpObjects M V) : Prop where
  dims : vec o.dims o'.dims
  observations : lst o.observations o'.observations
  meanParams : Option.Rel vec o.meanParams o'.meanParams
  subs : List.Forall₂ (GpObjects.ReadAs mat vec lst) o.subs o'.subs

/-- what is read in the directory of a saved `MultiGP` -/
theorem mgSaveTo_reads (h : RoundTrip Ar ext mat vec lst) (fs : Fs χ) (dir : String) {o o' : MultiGpObjects M V} (ho : o.ReadAs mat vec lst o') :
    let g := MultiGp.saveTo Ar fs dir o
    Ar.loadList g dir "observations" = some o'.observations ∧ Ar.loadVec g dir "dims" = some o'.dims ∧
    (∀ p, o'.meanParams = some p → Ar.loadVec g dir "mean_params" = some p) ∧
    ∀ (c : Nat) p', o'.subs[c]? = some p' → ∃ p fs0, p.ReadAs mat vec lst p' ∧
      ∀ obj, g (fileName ext (subDir dir c) obj) = Gp.saveTo Ar fs0 (subDir dir c) p (fileName ext (subDir dir c) obj) := by
  have key : ∀ a b, a ≠ b → fileName ext dir a ≠ fileName ext dir b := fun a b hab e => hab (fileName_inj.1 e)
  obtain ⟨dims, ys, mp, subs⟩ := o
  intro g
  have hg : g = MultiGp.saveTo Ar fs dir ⟨dims, ys, mp, subs⟩ := rfl
  unfold MultiGp.saveTo at hg
  simp only at hg
  refine ⟨?_, ?_, ?_, ?_⟩
  · refine h.list _ _ _ _ _ ho.observations ?_
    conv_lhs => rw [hg]
    rw [saveSubs_frame h dir subs 0 _ _ fun j _ obj => dir_ne (by decide) (by decide)]
    cases mp with
    | none => exact h.sameList _ _ _ _ _
    | some q => exact (h.frameMat _ _ _ _ _ (key _ _ (by decide))).trans (h.sameList _ _ _ _ _)
  · refine h.vec _ _ _ _ _ ho.dims ?_
    conv_lhs => rw [hg]
    rw [saveSubs_frame h dir subs 0 _ _ fun j _ obj => dir_ne (by decide) (by decide)]
    cases mp with
    | none => exact (h.frameList _ _ _ _ _ (key _ _ (by decide))).trans (h.sameMat _ _ _ _ _)
    | some q =>
      exact (h.frameMat _ _ _ _ _ (key _ _ (by decide))).trans ((h.frameList _ _ _ _ _ (key _ _ (by decide))).trans (h.sameMat _ _ _ _ _))
  · intro p hp
    have hr := ho.meanParams
    rw [hp] at hr
    cases mp with
    | none => cases hr
    | some q =>
      cases hr with
      | some hr =>
        refine h.vec _ _ _ _ _ hr ?_
        conv_lhs => rw [hg]
        rw [saveSubs_frame h dir subs 0 _ _ fun j _ obj => dir_ne (by decide) (by decide)]
        exact h.sameMat _ _ _ _ _
  · intro c p' hp'
    obtain ⟨hlen, hget⟩ := List.forall₂_iff_get.1 ho.subs
    obtain ⟨hc', hp'⟩ := List.getElem?_eq_some_iff.1 hp'
    have hc : c < subs.length := by rw [hlen]; exact hc'
    obtain ⟨fsm, hgm⟩ : ∃ fsm, g = saveSubs Ar dir 0 subs fsm := ⟨_, hg⟩
    obtain ⟨fs0, hf⟩ := saveSubs_files h dir subs 0 fsm c subs[c] (List.getElem?_eq_getElem hc)
    refine ⟨subs[c], fs0, ?_, fun obj => ?_⟩
    · have := hget c hc hc'
      rw [← hp']
      exact this
    · have := hf obj
      rw [Nat.zero_add] at this
      rw [← this, hgm]

/-- saving and loading through an archive that keeps the numbers -/
theorem mg_roundtrip (hE : LawfulEnv E) (hI : StdKernel E.K) (hM : StdMean E.M) (hn : E.KP.optimizeNoise = true → 0 < E.KP.noise)
    (hr : MgReach E ind B st) (hB : B.UpToDate) (hd : DataSet B.xs B.ys din dout) (h : RoundTrip Ar ext mat vec lst) (R : Reading M V)
    {o o' : MultiGpObjects M V} (ho : o.ReadAs mat vec lst o') (hs : MultiGp.Stores R o' st) (fs : Fs χ) (dir : String)
    (t : MultiGpState E) (recomp : Bool) (junk : MultiJunk) :
    ∃ t', MultiGp.loadFrom Ar R (MultiGp.saveTo Ar fs dir o) dir junk t recomp = some t' ∧
      MultiGp.samplesOf t' = some B.xs ∧ MultiGp.observationsOf t' = B.ys ∧
      t'.models.map (fun g => g.kf.hParams E.KP) = st.models.map (fun g => g.kf.hParams E.KP) ∧ E.M.hParams t'.mf = E.M.hParams st.mf ∧
      ∀ v, ∃ m σ, MultiGp.query st v = some (m, σ) ∧ MultiGp.query t' v = some (m, σ) := by
  have T := hr.tracks hE
  obtain ⟨hdi, hdo, hl, -⟩ := T.dims hd
  obtain ⟨-, hres, -⟩ := id hB
  have hdp := hd.dout_pos
  have hmr : MReach E.M dout st.mf := by
    rcases T.reach with h | h
    · omega
    · rw [hdo, Int.toNat_natCast] at h; exact h
  have hsz := (mean_rebuild hM hmr).1
  obtain ⟨f1, f2, f3, f4⟩ := mgSaveTo_reads h fs dir ho
  obtain ⟨hlen, hget⟩ := List.forall₂_iff_get.1 hs.subs
  let a : MultiGp.Saved := ⟨(st.dimIn, st.dimOut), o'.observations.map R.row, o'.meanParams.map R.vec, o'.subs.map (·.read R)⟩
  have htr : ∀ z : Int, truncInt (z : ℝ) = z := by
    intro z
    unfold truncInt
    split <;> simp
  have hload : MultiGp.loadFrom Ar R (MultiGp.saveTo Ar fs dir o) dir junk t recomp = MultiGp.load junk t a recomp := by
    unfold MultiGp.loadFrom MultiGp.load
    rw [f1, Option.bind_some, f2, Option.bind_some, hs.dims]
    simp only [List.getElem?_cons_zero, List.getElem?_cons_succ, Option.bind_some, htr]
    have em : (if E.M.hSize (E.M.new st.dimOut.toNat) > 0 then
        (Ar.loadVec (MultiGp.saveTo Ar fs dir o) dir "mean_params").bind fun p =>
          if (R.vec p).length = E.M.hSize (E.M.new st.dimOut.toNat) then some (E.M.setH (E.M.new st.dimOut.toNat) (R.vec p)) else none
        else some (E.M.new st.dimOut.toNat)) =
      (if E.M.hSize (E.M.new st.dimOut.toNat) > 0 then
        (o'.meanParams.map R.vec).bind fun p =>
          if p.length = E.M.hSize (E.M.new st.dimOut.toNat) then some (E.M.setH (E.M.new st.dimOut.toNat) p) else none
        else some (E.M.new st.dimOut.toNat)) := by
      by_cases h0 : E.M.hSize (E.M.new st.dimOut.toNat) > 0
      · rw [if_pos h0, if_pos h0]
        have := hs.meanParams
        unfold MultiGp.save at this
        simp only at this
        rw [if_pos (by rw [hdo, Int.toNat_natCast, hsz] at h0; exact h0)] at this
        obtain ⟨p, hp, -⟩ := Option.map_eq_some_iff.1 this
        rw [f3 p hp, hp]
        rfl
      · rw [if_neg h0, if_neg h0]
    rw [em]
    have el : loopM (fun i g => Gp.loadFrom Ar R (MultiGp.saveTo Ar fs dir o) (subDir dir i) (junk.mat i) g false) 0
          (resizeModels (E := E) junk.num t.models st.dimOut.toNat) =
        loopM (fun i g => (a.subs[i]?).bind fun b => Gp.load (junk.mat i) g b false) 0 (resizeModels (E := E) junk.num t.models st.dimOut.toNat) := by
      refine loopM_congr rfl ?_
      intro c g g' hg hg'
      rw [hg] at hg'
      cases hg'
      rw [Nat.zero_add]
      have hc : c < st.models.length := by
        obtain ⟨h, -⟩ := List.getElem?_eq_some_iff.1 hg
        simp only [resizeModels, List.length_map, List.length_range] at h
        rw [hdo, Int.toNat_natCast] at h
        omega
      have hc' : c < o'.subs.length := by rw [hlen]; exact hc
      have hsc := hget c hc' hc
      obtain ⟨p, fs0, hp, hf⟩ := f4 c o'.subs[c] (List.getElem?_eq_getElem hc')
      obtain ⟨g1, g2, g3, g4, g5, g6⟩ := saveTo_reads h fs0 _ (subDir dir c) hp hf
      obtain ⟨A, TA, e1, -, -, -, -, e6, -⟩ := T.subs c _ (List.getElem?_eq_getElem hc)
      rw [hdo, Int.toNat_natCast] at e6
      have hds : DataSet A.xs A.ys din 1 := by rw [e1, e6 hres]; exact centred_dataset hd c
      rw [loadFrom_stored (E := E.sub) hI .null TA hds Ar R _ (subDir dir c) g false (junk.mat c) o'.subs[c] hsc g1 g2 g3 g4 g5 g6]
      have : a.subs[c]? = some (o'.subs[c].read R) := by simp [a, hc']
      rw [this, Option.bind_some]
    rw [el]
  rw [hload]
  refine mg_load_like hE hI hM hn hr hB hd t recomp junk a rfl hs.observations hs.meanParams (by simp [a, hlen]) ?_
  intro c g b hg hb
  obtain ⟨hc, rfl⟩ := List.getElem?_eq_some_iff.1 hg
  have hc' : c < o'.subs.length := by rw [hlen]; exact hc
  have hsc := hget c hc' hc
  have : a.subs[c]? = some (o'.subs[c].read R) := by simp [a, hc']
  rw [this] at hb
  cases hb
  exact ⟨hsc.kernelParams, hsc.meanParams, hsc.samples, hsc.observations, hsc.matrixL, hsc.alpha⟩

end Limbo
