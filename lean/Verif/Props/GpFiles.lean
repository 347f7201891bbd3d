import Verif.Lemmas.GpFiles

/-!
# C40, down to the files

`saveTo` writes the stored objects of a GP with an archive, `loadFrom` reads them into another GP object, following `GP::save` and
`GP::load` call by call.
-/

namespace Limbo

open Finset Gp Matrix

variable {E : GpEnv} {A B : GpAbs} {st s t : GpState E} {din dout : Nat}

namespace BinArch

theorem loadMat_congr {junk : Nat → Byte} {fs fs' : Fs Byte} {dir obj : String} (h : fs (fname dir obj) = fs' (fname dir obj)) :
    loadMat junk fs dir obj = loadMat junk fs' dir obj := by unfold loadMat openIn; rw [h]

theorem loadVec_congr {junk : Nat → Byte} {fs fs' : Fs Byte} {dir obj : String} (h : fs (fname dir obj) = fs' (fname dir obj)) :
    loadVec junk fs dir obj = loadVec junk fs' dir obj := by unfold loadVec openIn; rw [h]

theorem loadList_congr {junk : Nat → Byte} {fs fs' : Fs Byte} {dir obj : String} (h : fs (fname dir obj) = fs' (fname dir obj)) :
    loadList junk fs dir obj = loadList junk fs' dir obj := by unfold loadList openIn; rw [h]

/-- the files after `save` -/
theorem saveTo_files (junk : Nat → Byte) (fs : Fs Byte) (dir : String) (o : GpObjects BMat BMat) :
    let g := saveTo (cls junk) fs dir o
    g (fname dir "samples") = saveList fs dir "samples" o.samples (fname dir "samples") ∧
    g (fname dir "observations") = saveMat fs dir "observations" o.observations (fname dir "observations") ∧
    g (fname dir "matrixL") = saveMat fs dir "matrixL" o.matrixL (fname dir "matrixL") ∧
    g (fname dir "alpha") = saveMat fs dir "alpha" o.alpha (fname dir "alpha") ∧
    (∀ p, o.kernelParams = some p → g (fname dir "kernel_params") = saveMat fs dir "kernel_params" p (fname dir "kernel_params")) ∧
    (∀ p, o.meanParams = some p → g (fname dir "mean_params") = saveMat fs dir "mean_params" p (fname dir "mean_params")) := by
  have key : ∀ a b, (fname dir a = fname dir b) = (a = b) := fun a b => propext ⟨bin_fname_inj, fun h => by rw [h]⟩
  obtain ⟨kp, mp, xs, ys, L, al⟩ := o
  cases kp <;> cases mp <;> simp [saveTo, cls, saveMat, saveList, Fs.write, key]

end BinArch

/-- **C40** for the binary archive, file by file: an up-to-date GP is saved to a directory (whatever was in it before) and loaded from it
into any GP object.  Loading succeeds and restores the data, the hyper-parameters and every prediction, with or without recomputing. -/
theorem C40_binary_directory (hE : LawfulEnv E) (hI : StdKernel E.K) (hM : StdMean E.M) (hn : E.KP.optimizeNoise = true → 0 < E.KP.noise)
    (hr : GpReach E A s) (hA : A.UpToDate) (hd : DataSet A.xs A.ys din dout) (val : BitVec 64 → ℝ) {o : GpObjects BinArch.BMat BinArch.BMat}
    (ho : BinArch.Storable o) (hs : Stores (BinArch.reading val) o s) (mem : Nat → Byte) (fs : Fs Byte) (dir : String) (t : GpState E)
    (recomp : Bool) (junk : Nat → Nat → ℝ) :
    ∃ t', loadFrom (BinArch.cls mem) (BinArch.reading val) (saveTo (BinArch.cls mem) fs dir o) dir junk t recomp = some t' ∧
      samplesOf t' = A.xs ∧ observationsOf t' = A.ys ∧
      t'.kf.hParams E.KP = s.kf.hParams E.KP ∧ E.M.hParams t'.mf = E.M.hParams s.mf ∧
      (∀ v, ∃ m m', mu s v = some m ∧ mu t' v = some m' ∧ ∀ c < dout, m c = m' c) ∧
      (∀ v, ∃ σ, sigma s v = some σ ∧ sigma t' v = some σ) ∧
      (recomp = true → SameFit s t' A.xs.length dout) := by
  have T := hr.tracks hE
  obtain ⟨f1, f2, f3, f4, f5, f6⟩ := BinArch.saveTo_files mem fs dir o
  have hmem : ∀ m ∈ o.samples, m.Fits ∧ m.cols = 1 := fun m hm => ho.params m (by simp [hm])
  refine loadFrom_like hE hI hM hn T hA hd _ _ _ dir t recomp junk o hs ?_ ?_ ?_ ?_ ?_ ?_
  · have hne : o.samples ≠ [] := by
      intro h
      have := hs.samples
      rw [h, T.samples] at this
      exact hd.nonempty this.symm
    exact (BinArch.loadList_congr f1).trans (C54_list_roundtrip mem fs dir _ hmem hne ho.count)
  · exact (BinArch.loadMat_congr f2).trans (C54_matrix_roundtrip mem fs dir _ (ho.mats _ (by simp)))
  · exact (BinArch.loadMat_congr f3).trans (C54_matrix_roundtrip mem fs dir _ (ho.mats _ (by simp)))
  · exact (BinArch.loadMat_congr f4).trans (C54_matrix_roundtrip mem fs dir _ (ho.mats _ (by simp)))
  · intro p hp
    obtain ⟨q1, q2⟩ := ho.params p (by simp [hp])
    exact (BinArch.loadVec_congr (f5 p hp)).trans (C54_vector_roundtrip mem fs dir _ q1 q2)
  · intro p hp
    obtain ⟨q1, q2⟩ := ho.params p (by simp [hp])
    exact (BinArch.loadVec_congr (f6 p hp)).trans (C54_vector_roundtrip mem fs dir _ q1 q2)

namespace TextArch

variable {D : Type} {F : NumFmt D}

theorem loadMat_congr {junk : Nat → Nat → D} {fs fs' : Fs Char} {dir obj : String} (h : fs (fname dir obj) = fs' (fname dir obj)) :
    loadMat F junk fs dir obj = loadMat F junk fs' dir obj := by unfold loadMat loadRaw; rw [h]

theorem loadList_congr {fs fs' : Fs Char} {dir obj : String} (h : fs (fname dir obj) = fs' (fname dir obj)) :
    loadList F fs dir obj = loadList F fs' dir obj := by unfold loadList loadRaw; rw [h]

/-- the files after `save` -/
theorem saveTo_files (junk : Nat → Nat → D) (fs : Fs Char) (dir : String) (o : GpObjects (TMat D) (List D)) :
    let g := saveTo (cls F junk) fs dir o
    g (fname dir "samples") = saveList F fs dir "samples" o.samples (fname dir "samples") ∧
    g (fname dir "observations") = saveMat F fs dir "observations" o.observations (fname dir "observations") ∧
    g (fname dir "matrixL") = saveMat F fs dir "matrixL" o.matrixL (fname dir "matrixL") ∧
    g (fname dir "alpha") = saveMat F fs dir "alpha" o.alpha (fname dir "alpha") ∧
    (∀ p, o.kernelParams = some p → g (fname dir "kernel_params") = saveMat F fs dir "kernel_params" p (fname dir "kernel_params")) ∧
    (∀ p, o.meanParams = some p → g (fname dir "mean_params") = saveMat F fs dir "mean_params" p (fname dir "mean_params")) := by
  have key : ∀ a b, (fname dir a = fname dir b) = (a = b) := fun a b => propext ⟨text_fname_inj, fun h => by rw [h]⟩
  obtain ⟨kp, mp, xs, ys, L, al⟩ := o
  cases kp <;> cases mp <;> simp [saveTo, cls, saveMat, saveList, Fs.write, key]

/-- a matrix after being printed and read -/
def TMat.round (rnd : D → D) (m : TMat D) : TMat D := ⟨m.rows, m.cols, m.e.map fun r => r.map rnd⟩

theorem map_val {rnd : D → D} {val : D → ℝ} {r : List D} (h : ∀ x ∈ r, val (rnd x) = val x) : (r.map rnd).map val = r.map val := by
  rw [List.map_map]
  exact List.map_congr_left h

theorem mat_round {rnd : D → D} {val : D → ℝ} {m : TMat D} (h : ∀ r ∈ m.e, ∀ x ∈ r, val (rnd x) = val x) :
    (reading val).mat (m.round rnd) = (reading val).mat m := by
  have he : ∀ i, (((m.e.map fun r => r.map rnd).getD i []).map val) = ((m.e.getD i []).map val) := by
    intro i
    rw [List.getD_eq_getElem?_getD, List.getD_eq_getElem?_getD, List.getElem?_map]
    cases hi : m.e[i]? with
    | none => rfl
    | some r => exact map_val (h r (List.mem_of_getElem? hi))
  simp only [reading, TMat.round, he]

theorem vec_round {rnd : D → D} {val : D → ℝ} {m : TMat D} (h : ∀ r ∈ m.e, ∀ x ∈ r, val (rnd x) = val x) :
    (reading val).vec (m.round rnd) = (reading val).vec m := by
  simp only [reading, TMat.round, List.map_map]
  refine List.map_congr_left fun r hr => ?_
  simp only [Function.comp_apply]
  rw [map_val (h r hr)]

end TextArch

/-- **C40** for the text archive, file by file, as far as its number format allows: if every number is printed as a word without separators
and is read back as a number of the same value, saving an up-to-date GP to a directory (whatever was in it before) and loading it into any
GP object succeeds and restores the data, the hyper-parameters and every prediction.  (C55: the format does lose digits in general.) -/
theorem C40_text_directory {D : Type} (hE : LawfulEnv E) (hI : StdKernel E.K) (hM : StdMean E.M)
    (hn : E.KP.optimizeNoise = true → 0 < E.KP.noise) (hr : GpReach E A s) (hA : A.UpToDate) (hd : DataSet A.xs A.ys din dout)
    (val : D → ℝ) {o : GpObjects (TextArch.TMat D) (List D)} (ho : TextArch.Storable o) (hs : Stores (TextArch.reading val) o s)
    (F : TextArch.NumFmt D) (hF : ∀ x ∈ TextArch.numbers o, F.Word x ∧ ∃ y, F.parse (F.print x) = some y ∧ val y = val x)
    (mem : Nat → Nat → D) (fs : Fs Char) (dir : String) (t : GpState E) (recomp : Bool) (junk : Nat → Nat → ℝ) :
    ∃ t', loadFrom (TextArch.cls F mem) (TextArch.reading val) (saveTo (TextArch.cls F mem) fs dir o) dir junk t recomp = some t' ∧
      samplesOf t' = A.xs ∧ observationsOf t' = A.ys ∧
      t'.kf.hParams E.KP = s.kf.hParams E.KP ∧ E.M.hParams t'.mf = E.M.hParams s.mf ∧
      (∀ v, ∃ m m', mu s v = some m ∧ mu t' v = some m' ∧ ∀ c < dout, m c = m' c) ∧
      (∀ v, ∃ σ, sigma s v = some σ ∧ sigma t' v = some σ) ∧
      (recomp = true → SameFit s t' A.xs.length dout) := by
  classical
  have T := hr.tracks hE
  -- what is read for each number
  let rnd : D → D := fun x => (F.parse (F.print x)).getD x
  have hp : ∀ x ∈ TextArch.numbers o, F.parse (F.print x) = some (rnd x) ∧ val (rnd x) = val x := by
    intro x hx
    obtain ⟨-, y, h1, h2⟩ := hF x hx
    have : rnd x = y := by simp only [rnd, h1, Option.getD_some]
    rw [this]
    exact ⟨h1, h2⟩
  have nums : ∀ m ∈ o.kernelParams.toList ++ o.meanParams.toList ++ [o.observations, o.matrixL, o.alpha], ∀ r ∈ m.e, ∀ x ∈ r,
      x ∈ TextArch.numbers o := by
    intro m hm r hrr x hx
    unfold TextArch.numbers
    exact List.mem_append_left _ (List.mem_flatMap.2 ⟨m, hm, List.mem_flatten.2 ⟨r, hrr, hx⟩⟩)
  have numsS : ∀ r ∈ o.samples, ∀ x ∈ r, x ∈ TextArch.numbers o := by
    intro r hrr x hx
    exact List.mem_append_right _ (List.mem_flatten.2 ⟨r, hrr, hx⟩)
  have rt : ∀ m ∈ o.kernelParams.toList ++ o.meanParams.toList ++ [o.observations, o.matrixL, o.alpha], m.Proper → ∀ obj,
      TextArch.loadMat F mem (TextArch.saveMat F fs dir obj m) dir obj = some (m.round rnd) := by
    intro m hm hpr obj
    exact C55_matrix_roundtrip F mem fs dir obj hpr rnd (fun r hrr x hx => (hF x (nums m hm r hrr x hx)).1)
      (fun r hrr x hx => (hp x (nums m hm r hrr x hx)).1)
  have mv : ∀ m ∈ o.kernelParams.toList ++ o.meanParams.toList ++ [o.observations, o.matrixL, o.alpha], ∀ r ∈ m.e, ∀ x ∈ r,
      val (rnd x) = val x := fun m hm r hrr x hx => (hp x (nums m hm r hrr x hx)).2
  obtain ⟨f1, f2, f3, f4, f5, f6⟩ := TextArch.saveTo_files (F := F) mem fs dir o
  let o' : GpObjects (TextArch.TMat D) (List D) :=
    ⟨o.kernelParams.map (·.round rnd), o.meanParams.map (·.round rnd), o.samples.map fun r => r.map rnd, o.observations.round rnd,
      o.matrixL.round rnd, o.alpha.round rnd⟩
  have hs' : Stores (TextArch.reading val) o' s := by
    refine ⟨?_, ?_, ?_, ?_, ?_, ?_⟩
    · rw [← hs.kernelParams]
      show (o.kernelParams.map _).map _ = _
      cases hkp : o.kernelParams with
      | none => rfl
      | some p => exact congrArg some (TextArch.vec_round (mv p (by simp [hkp])))
    · rw [← hs.meanParams]
      show (o.meanParams.map _).map _ = _
      cases hkp : o.meanParams with
      | none => rfl
      | some p => exact congrArg some (TextArch.vec_round (mv p (by simp [hkp])))
    · rw [← hs.samples]
      show (o.samples.map _).map _ = _
      rw [List.map_map]
      exact List.map_congr_left fun r hrr => TextArch.map_val fun x hx => (hp x (numsS r hrr x hx)).2
    · have := hs.observations
      rw [← TextArch.mat_round (mv o.observations (by simp))] at this
      exact this
    · have := hs.matrixL
      rw [← TextArch.mat_round (mv o.matrixL (by simp))] at this
      exact this
    · have := hs.alpha
      rw [← TextArch.mat_round (mv o.alpha (by simp))] at this
      exact this
  have vec : ∀ m ∈ o.kernelParams.toList ++ o.meanParams.toList, ∀ obj (g : Fs Char),
      g (TextArch.fname dir obj) = TextArch.saveMat F fs dir obj m (TextArch.fname dir obj) →
      TextArch.loadVec F mem g dir obj = some (m.round rnd) := by
    intro m hm obj g hg
    obtain ⟨q1, q2⟩ := ho.params m hm
    unfold TextArch.loadVec
    rw [TextArch.loadMat_congr hg, rt m (List.mem_append_left _ hm) q1 obj, Option.bind_some]
    exact if_pos q2
  refine loadFrom_like hE hI hM hn T hA hd _ _ _ dir t recomp junk o' hs' ?_ ?_ ?_ ?_ ?_ ?_
  · have hne : o.samples ≠ [] := by
      intro h
      have := hs.samples
      rw [h, T.samples] at this
      exact hd.nonempty this.symm
    exact (TextArch.loadList_congr f1).trans (C55_list_roundtrip F fs dir _ hne rnd (fun r hrr x hx => (hF x (numsS r hrr x hx)).1)
      (fun r hrr x hx => (hp x (numsS r hrr x hx)).1))
  · exact (TextArch.loadMat_congr f2).trans (rt _ (by simp) (ho.mats _ (by simp)) _)
  · exact (TextArch.loadMat_congr f3).trans (rt _ (by simp) (ho.mats _ (by simp)) _)
  · exact (TextArch.loadMat_congr f4).trans (rt _ (by simp) (ho.mats _ (by simp)) _)
  · intro p hpp
    obtain ⟨q, hq, rfl⟩ := Option.map_eq_some_iff.1 hpp
    exact vec q (by simp [hq]) _ _ (f5 q hq)
  · intro p hpp
    obtain ⟨q, hq, rfl⟩ := Option.map_eq_some_iff.1 hpp
    exact vec q (by simp [hq]) _ _ (f6 q hq)

/-! ### a GP whose numbers are doubles -/

/-- Isotropic squared exponential with `σ² = l = 1` and a noise of `3 - 1e-8`. -/
noncomputable def exEnvF : GpEnv := ⟨expKernel 1 1, ⟨3 - 1e-8, false⟩, nullMean, llt_contract_satisfiable.choose⟩

theorem exEnvF_lawful : LawfulEnv exEnvF :=
  lawfulEnv_std (.exp one_pos one_pos) (by show (0 : ℝ) ≤ 3 - 1e-8; norm_num) llt_contract_satisfiable.choose_spec

theorem doubleVal_zero : doubleVal 0#64 = 0 := by
  unfold doubleVal
  norm_num

theorem doubleVal_one : doubleVal 0x3ff0000000000000#64 = 1 := by
  unfold doubleVal
  norm_num

theorem doubleVal_two : doubleVal 0x4000000000000000#64 = 2 := by
  unfold doubleVal
  norm_num

theorem doubleVal_quarter : doubleVal 0x3fd0000000000000#64 = 1 / 4 := by
  unfold doubleVal
  norm_num

/-- the numbers of a GP fitted to the observation 1 at 0 -/
structure ExNumbers (s : GpState exEnvF) : Prop where
  kernelParams : (Gp.save s).kernelParams = some [0, 0]
  meanParams : (Gp.save s).meanParams = none
  samples : s.samples = [[0]]
  observations : (⟨1, 1, fun _ _ => 1⟩ : Mat).Same s.obs
  matrixL : (⟨1, 1, fun _ _ => 2⟩ : Mat).Same s.L
  alpha : (⟨1, 1, fun _ _ => 1 / 4⟩ : Mat).Same s.alpha

theorem exF_of {A : GpAbs} {s : GpState exEnvF} (T : Tracks exEnvF A s) (hx : A.xs = [[0]]) (hy : A.ys = [[1]]) (hk1 : A.k = true)
    (ha1 : A.a = true) (hk : s.kf = BaseK.mk' exEnvF.KP 1) : ExNumbers s := by
  have hE := exEnvF_lawful
  obtain ⟨xs, ys, k, m, a, i⟩ := A
  simp only at hx hy hk1 ha1
  subst hx hy hk1 ha1
  have hd : DataSet [[(0:ℝ)]] [[1]] 1 1 := ⟨by simp, by simp, by simp, by simp, by norm_num, by norm_num⟩
  have hh := T.hasData hd
  have hop : s.kf.op [0] [0] = 1 := by
    rw [hk]
    exact (C42_initial_variance (P := exEnvF.KP) (d := 1) one_pos one_pos 0 [0]).1
  have hno : s.kf.noise = 3 - 1e-8 := by rw [hk]; rfl
  have hgram : gramN s.kf s.samples 0 0 = 4 := by
    rw [T.samples]
    show s.kf.opIJ [0] [0] 0 0 = 4
    have hI : StdKernel exEnvF.K := .exp one_pos one_pos
    rw [(C42_noise_only_on_diagonal hI (show (0 : ℝ) ≤ exEnvF.KP.noise from hE.noise) (T.kreach hh) [0] [0] 0 0).1, hop, hno]
    norm_num
  have hks := T.kok rfl
  have hL : s.L.e 0 0 = 2 := by
    have h1 := hks.chol.prod 0 Nat.one_pos 0 Nat.one_pos
    have h2 := hks.chol.diag 0 Nat.one_pos
    rw [hgram] at h1
    have h3 : s.L.e 0 0 * s.L.e 0 0 = 4 := (sum_range_one fun k => s.L.e 0 k * s.L.e 0 k).symm.trans h1
    nlinarith
  have ho : s.obs.e 0 0 = 1 := hh.obsE 0 Nat.one_pos 0 Nat.one_pos
  have has := T.aok hd.nonempty rfl
  have hdo : s.dimOut.toNat = 1 := by rw [hh.dimOut]; rfl
  rw [hdo] at has
  have hal : s.alpha.e 0 0 = 1 / 4 := by
    have h1 := has.sol 0 Nat.one_pos 0 Nat.one_pos
    have h3 : gramN s.kf s.samples 0 0 * s.alpha.e 0 0 = s.obs.e 0 0 - 0 :=
      (sum_range_one fun k => gramN s.kf s.samples 0 k * s.alpha.e k 0).symm.trans h1
    rw [hgram, ho] at h3
    linarith
  have one : ∀ (x : ℝ) (m : Mat), m.rows = 1 → m.cols = 1 → m.e 0 0 = x → (⟨1, 1, fun _ _ => x⟩ : Mat).Same m := by
    intro x m h1 h2 h3
    refine ⟨h1.symm, h2.symm, fun i hi k hk' => ?_⟩
    rw [Nat.lt_one_iff.1 hi, Nat.lt_one_iff.1 hk', h3]
  refine ⟨?_, rfl, T.samples, one 1 _ hh.obsRows hh.obsCols ho, one 2 _ hks.rows hks.cols hL, one _ _ has.rows has.cols hal⟩
  unfold save
  simp only
  rw [hk]
  show some [Real.log 1, Real.log √1] = _
  rw [Real.sqrt_one, Real.log_one]

theorem exF_numbers (j : Nat → Nat → ℝ) : ∃ s, compute j (Gp.new exEnvF (0, 0)) [[0]] [[1]] true = some s ∧ ExNumbers s := by
  have hd : DataSet [[(0:ℝ)]] [[1]] 1 1 := ⟨by simp, by simp, by simp, by simp, by norm_num, by norm_num⟩
  obtain ⟨s, hs, T, hk, hm, -⟩ := track_compute exEnvF_lawful j (track_new (E := exEnvF) (0, 0)) hd true
  rw [if_neg (by intro h; cases h)] at hk
  exact ⟨s, hs, exF_of T rfl rfl rfl rfl hk⟩

/-- these numbers as doubles -/
def exObjB : GpObjects BinArch.BMat BinArch.BMat := ⟨some ⟨2, 1, [0#64, 0#64]⟩, none, [⟨1, 1, [0#64]⟩], ⟨1, 1, [0x3ff0000000000000#64]⟩,
  ⟨1, 1, [0x4000000000000000#64]⟩, ⟨1, 1, [0x3fd0000000000000#64]⟩⟩

theorem exObjB_stores {s : GpState exEnvF} (N : ExNumbers s) : BinArch.Storable exObjB ∧ Stores (BinArch.reading doubleVal) exObjB s := by
  obtain ⟨h1, h2, h3, h4, h5, h6⟩ := N
  refine ⟨⟨?_, ?_, by decide⟩, ?_⟩
  · intro m hm
    simp only [exObjB, Option.toList, List.cons_append, List.nil_append, List.mem_cons, List.not_mem_nil, or_false] at hm
    rcases hm with rfl | rfl <;> exact ⟨⟨by decide, by decide, by decide, by decide⟩, rfl⟩
  · intro m hm
    simp only [exObjB, List.mem_cons, List.not_mem_nil, or_false] at hm
    rcases hm with rfl | rfl | rfl <;> exact ⟨by decide, by decide, by decide, by decide⟩
  · have one : ∀ {w : BitVec 64} {x : ℝ} {m : Mat}, doubleVal w = x → (⟨1, 1, fun _ _ => x⟩ : Mat).Same m →
        ((BinArch.reading doubleVal).mat ⟨1, 1, [w]⟩).Same m := by
      intro w x m hw hm
      refine ⟨hm.rows, hm.cols, fun i hi k hk => ?_⟩
      have := hm.e i hi k hk
      rw [← this, Nat.lt_one_iff.1 hi, Nat.lt_one_iff.1 hk]
      exact hw
    refine ⟨?_, ?_, ?_, one doubleVal_one h4, one doubleVal_two h5, one doubleVal_quarter h6⟩
    · rw [h1]
      show some [doubleVal 0#64, doubleVal 0#64] = _
      rw [doubleVal_zero]
    · rw [h2]; rfl
    · rw [h3]
      show [[doubleVal 0#64]] = _
      rw [doubleVal_zero]

/-- The hypotheses of C40_binary_directory: the GP fitted to the observation 1 at 0, whose numbers are 0, 1, 2 and 1/4. -/
example (j : Nat → Nat → ℝ) : ∃ (s : GpState exEnvF) (o : GpObjects BinArch.BMat BinArch.BMat),
    GpReach exEnvF ⟨[[0]], [[1]], true, true, true, true⟩ s ∧ BinArch.Storable o ∧ Stores (BinArch.reading doubleVal) o s := by
  obtain ⟨s, hs, N⟩ := exF_numbers j
  exact ⟨s, exObjB, (GpReach.new (E := exEnvF) (0, 0)).step (op := .compute _ _ true) (junk := j) trivial hs, exObjB_stores N⟩

/-- the numbers as rationals, printed in unary code -/
def exObjT : GpObjects (TextArch.TMat ℚ) (List ℚ) :=
  ⟨some ⟨2, 1, [[0], [0]]⟩, none, [[0]], ⟨1, 1, [[1]]⟩, ⟨1, 1, [[2]]⟩, ⟨1, 1, [[1 / 4]]⟩⟩

def exFmt : TextArch.NumFmt ℚ := ⟨fun x => List.replicate (Encodable.encode x + 1) '1', fun w => Encodable.decode (w.length - 1)⟩

theorem exFmt_ok (x : ℚ) : exFmt.Word x ∧ ∃ y, exFmt.parse (exFmt.print x) = some y ∧ (y : ℝ) = x := by
  refine ⟨⟨by simp [exFmt], ?_, ?_⟩, x, by simp [exFmt], rfl⟩
  · intro h; exact absurd (List.eq_of_mem_replicate h) (by decide)
  · intro h; exact absurd (List.eq_of_mem_replicate h) (by decide)

theorem exObjT_stores {s : GpState exEnvF} (N : ExNumbers s) : TextArch.Storable exObjT ∧ Stores (TextArch.reading fun q : ℚ => (q : ℝ)) exObjT s := by
  obtain ⟨h1, h2, h3, h4, h5, h6⟩ := N
  refine ⟨⟨?_, ?_⟩, ?_⟩
  · intro m hm
    simp only [exObjT, Option.toList, List.cons_append, List.nil_append, List.mem_cons, List.not_mem_nil, or_false] at hm
    subst hm
    exact ⟨⟨by decide, by decide, rfl, by simp⟩, rfl⟩
  · intro m hm
    simp only [exObjT, List.mem_cons, List.not_mem_nil, or_false] at hm
    rcases hm with rfl | rfl | rfl <;> exact ⟨by decide, by decide, rfl, by simp⟩
  · have one : ∀ {w : ℚ} {x : ℝ} {m : Mat}, (w : ℝ) = x → (⟨1, 1, fun _ _ => x⟩ : Mat).Same m →
        ((TextArch.reading fun q : ℚ => (q : ℝ)).mat ⟨1, 1, [[w]]⟩).Same m := by
      intro w x m hw hm
      refine ⟨hm.rows, hm.cols, fun i hi k hk => ?_⟩
      have := hm.e i hi k hk
      rw [← this, Nat.lt_one_iff.1 hi, Nat.lt_one_iff.1 hk]
      exact hw
    refine ⟨?_, ?_, ?_, one (by norm_num) h4, one (by norm_num) h5, one (by norm_num) h6⟩
    · rw [h1]; simp [TextArch.reading, exObjT]
    · rw [h2]; rfl
    · rw [h3]; simp [TextArch.reading, exObjT]

/-- The hypotheses of C40_text_directory: the same GP, with rational numbers printed in unary code. -/
example (j : Nat → Nat → ℝ) : ∃ (s : GpState exEnvF) (o : GpObjects (TextArch.TMat ℚ) (List ℚ)) (F : TextArch.NumFmt ℚ),
    GpReach exEnvF ⟨[[0]], [[1]], true, true, true, true⟩ s ∧ TextArch.Storable o ∧ Stores (TextArch.reading fun q : ℚ => (q : ℝ)) o s ∧
    ∀ x ∈ TextArch.numbers o, F.Word x ∧ ∃ y, F.parse (F.print x) = some y ∧ (y : ℝ) = x := by
  obtain ⟨s, hs, N⟩ := exF_numbers j
  exact ⟨s, exObjT, exFmt, (GpReach.new (E := exEnvF) (0, 0)).step (op := .compute _ _ true) (junk := j) trivial hs, (exObjT_stores N).1,
    (exObjT_stores N).2, fun x _ => exFmt_ok x⟩

/-! What the objects stand for: entry (i, j) of a binary matrix is number `j * rows + i` (Eigen's column-major storage), of a text matrix the j-th number of
line i. -/

example (val : BitVec 64 → ℝ) (a b c d : BitVec 64) : let M := (BinArch.reading val).mat ⟨2, 2, [a, b, c, d]⟩
    M.rows = 2 ∧ M.cols = 2 ∧ M.e 0 0 = val a ∧ M.e 1 0 = val b ∧ M.e 0 1 = val c ∧ M.e 1 1 = val d := ⟨rfl, rfl, rfl, rfl, rfl, rfl⟩

example {D : Type} (val : D → ℝ) (a b c d : D) : let M := (TextArch.reading val).mat ⟨2, 2, [[a, b], [c, d]]⟩
    M.rows = 2 ∧ M.cols = 2 ∧ M.e 0 0 = val a ∧ M.e 0 1 = val b ∧ M.e 1 0 = val c ∧ M.e 1 1 = val d := ⟨rfl, rfl, rfl, rfl, rfl, rfl⟩

end Limbo
