import Verif.Model.Gp
import Verif.Model.Archive

/-!
`GP::save` and `GP::load` through an archive (`model/gp.hpp:438-511`), down to the files.

The archive class is a template parameter of `save` and `load`; here it is a record of the functions they call.  The GP of the model
computes with real numbers, the files contain doubles: `val` is the value of a stored number.  Numbers that are not real (NaN, infinities)
have no place in this model of the GP; for them there are C54 and C55.
-/

namespace Limbo

/-- What `GP::save` and `GP::load` use of an archive class: `M` are the matrices (and single vectors) it stores, `V` the elements of a
stored list of vectors. -/
structure ArchiveClass (χ M V : Type) where
  saveMat : Fs χ → String → String → M → Fs χ
  saveList : Fs χ → String → String → List V → Fs χ
  loadMat : Fs χ → String → String → Option M
  loadVec : Fs χ → String → String → Option M
  loadList : Fs χ → String → String → Option (List V)

/-- `serialize::BinaryArchive` — binary_archive.hpp:63-162; `junk` is the uninitialised memory of a resized matrix. -/
def BinArch.cls (junk : Nat → Byte) : ArchiveClass Byte BinArch.BMat BinArch.BMat :=
  ⟨BinArch.saveMat, BinArch.saveList, BinArch.loadMat junk, BinArch.loadVec junk, BinArch.loadList junk⟩

/-- `load(VectorXd&, name)` — text_archive.hpp:87-96: resizing a vector to other than one column fails an assertion. -/
def TextArch.loadVec {D : Type} (F : TextArch.NumFmt D) (junk : Nat → Nat → D) (fs : Fs Char) (dir obj : String) : Option (TextArch.TMat D) :=
  (TextArch.loadMat F junk fs dir obj).bind fun m => if m.cols = 1 then some m else none

/-- `serialize::TextArchive` — text_archive.hpp:63-150. -/
def TextArch.cls {D : Type} (F : TextArch.NumFmt D) (junk : Nat → Nat → D) : ArchiveClass Char (TextArch.TMat D) (List D) :=
  ⟨TextArch.saveMat F, TextArch.saveList F, TextArch.loadMat F junk, TextArch.loadVec F junk, TextArch.loadList F⟩

/-- The stored objects of a GP. -/
structure GpObjects (M V : Type) where
  kernelParams : Option M
  meanParams : Option M
  samples : List V
  observations : M
  matrixL : M
  alpha : M

/-- The numbers in the stored objects. -/
structure Reading (M V : Type) where
  /-- a matrix -/
  mat : M → Mat
  /-- a vector stored as a matrix of one column -/
  vec : M → List ℝ
  /-- an element of a list of vectors -/
  row : V → List ℝ

/-- The value of a binary object: column-major storage. -/
def BinArch.reading (val : BitVec 64 → ℝ) : Reading BinArch.BMat BinArch.BMat where
  mat m := ⟨m.rows, m.cols, fun i j => val (m.data.getD (j * m.rows + i) 0)⟩
  vec m := m.data.map val
  row m := m.data.map val

/-- The value of a text object. -/
def TextArch.reading {D : Type} (val : D → ℝ) : Reading (TextArch.TMat D) (List D) where
  mat m := ⟨m.rows, m.cols, fun i j => ((m.e.getD i []).map val).getD j 0⟩
  vec m := m.e.map fun r => (r.map val).getD 0 0
  row r := r.map val

namespace Gp

variable {χ M V : Type}

/-- `save(archive)` — gp.hpp:446-460, on the stored objects (the parameters are saved only if there are any). -/
def saveTo (Ar : ArchiveClass χ M V) (fs : Fs χ) (dir : String) (o : GpObjects M V) : Fs χ :=
  let fs := match o.kernelParams with
    | some p => Ar.saveMat fs dir "kernel_params" p
    | none => fs
  let fs := match o.meanParams with
    | some p => Ar.saveMat fs dir "mean_params" p
    | none => fs
  let fs := Ar.saveList fs dir "samples" o.samples
  let fs := Ar.saveMat fs dir "observations" o.observations
  let fs := Ar.saveMat fs dir "matrixL" o.matrixL
  Ar.saveMat fs dir "alpha" o.alpha

variable {E : GpEnv}

/-- `load(archive, recompute)` — gp.hpp:475-511, reading the files.  `none`: the archive fails, `_samples[0]` does not exist, a parameter
vector has the wrong size. -/
noncomputable def loadFrom (Ar : ArchiveClass χ M V) (R : Reading M V) (fs : Fs χ) (dir : String) (junk : Nat → Nat → ℝ) (st : GpState E)
    (recomp : Bool) : Option (GpState E) :=
  (Ar.loadList fs dir "samples").bind fun xs =>
  (Ar.loadMat fs dir "observations").bind fun ys =>
  let xs := xs.map R.row
  let ys := R.mat ys
  if xs = [] then none
  else
    let din := (xs.headD []).length
    let kf : BaseK E.K := BaseK.mk' E.KP din
    let kf? : Option (BaseK E.K) :=
      if kf.hParamsSize E.KP > 0 then
        (Ar.loadVec fs dir "kernel_params").bind fun p =>
          if (R.vec p).length = kf.hParamsSize E.KP then some (kf.setHParams E.KP (R.vec p)) else none
      else some kf
    kf?.bind fun kf =>
    let dout := ys.cols
    let mf := E.M.new dout
    let mf? : Option E.M.St :=
      if E.M.hSize mf > 0 then
        (Ar.loadVec fs dir "mean_params").bind fun p =>
          if (R.vec p).length = E.M.hSize mf then some (E.M.setH mf (R.vec p)) else none
      else some mf
    mf?.bind fun mf =>
    let st := { st with samples := xs, obs := ys, dimIn := din, kf := kf, dimOut := dout, mf := mf, meanObs := colMean ys }
    if recomp then recompute junk st true true
    else
      (Ar.loadMat fs dir "matrixL").bind fun L => (Ar.loadMat fs dir "alpha").bind fun a =>
        some { st with L := R.mat L, alpha := R.mat a }

end Gp

end Limbo
