import Verif.Model.GpFiles
import Verif.Model.MultiGp

/-!
`MultiGP::save` and `MultiGP::load` through an archive (`model/multi_gp.hpp:314-390`), down to the files: the sub-models are saved in
sub-directories `gp_0`, `gp_1`, ... of the directory of the archive.
-/

namespace Limbo

/-- The stored objects of a `MultiGP`. -/
structure MultiGpObjects (M V : Type) where
  dims : M
  observations : List V
  meanParams : Option M
  subs : List (GpObjects M V)

/-- `static_cast<int>(x)`: towards zero. -/
noncomputable def truncInt (x : ℝ) : Int := if 0 ≤ x then ⌊x⌋ else ⌈x⌉

/-- `archive.directory() + "/gp_" + std::to_string(i)` — multi_gp.hpp:338, 386. -/
def subDir (dir : String) (i : Nat) : String := dir ++ "/gp_" ++ toString i

namespace MultiGp

variable {χ M V : Type}

/-- The loop over the sub-models — multi_gp.hpp:337-339. -/
def saveSubs (Ar : ArchiveClass χ M V) (dir : String) : Nat → List (GpObjects M V) → Fs χ → Fs χ
  | _, [], fs => fs
  | i, o :: os, fs => saveSubs Ar dir (i + 1) os (Gp.saveTo Ar fs (subDir dir i) o)

/-- `save(archive)` — multi_gp.hpp:324-340, on the stored objects. -/
def saveTo (Ar : ArchiveClass χ M V) (fs : Fs χ) (dir : String) (o : MultiGpObjects M V) : Fs χ :=
  let fs := Ar.saveMat fs dir "dims" o.dims
  let fs := Ar.saveList fs dir "observations" o.observations
  let fs := match o.meanParams with
    | some p => Ar.saveMat fs dir "mean_params" p
    | none => fs
  saveSubs Ar dir 0 o.subs fs

variable {E : GpEnv}

/-- `load(archive, recompute)` — multi_gp.hpp:355-393, reading the files.  `none`: the archive fails, `dims(0)` or `dims(1)` does not exist,
the observations do not have `_dim_out` entries, a parameter vector has the wrong size, or a sub-model cannot be loaded. -/
noncomputable def loadFrom (Ar : ArchiveClass χ M V) (R : Reading M V) (fs : Fs χ) (dir : String) (junk : MultiJunk) (st : MultiGpState E)
    (recomp : Bool) : Option (MultiGpState E) :=
  (Ar.loadList fs dir "observations").bind fun ys =>
  (Ar.loadVec fs dir "dims").bind fun dims =>
  ((R.vec dims)[0]?).bind fun x0 => ((R.vec dims)[1]?).bind fun x1 =>
  let obs := ys.map R.row
  let d := (truncInt x1).toNat
  (averageObs obs d).bind fun avg =>
    let mf := E.M.new d
    let mf? : Option E.M.St :=
      if E.M.hSize mf > 0 then
        (Ar.loadVec fs dir "mean_params").bind fun p => if (R.vec p).length = E.M.hSize mf then some (E.M.setH mf (R.vec p)) else none
      else some mf
    mf?.bind fun mf =>
      (loopM (fun i g => Gp.loadFrom Ar R fs (subDir dir i) (junk.mat i) g false) 0 (resizeModels junk.num st.models d)).bind fun ms =>
        let st : MultiGpState E := ⟨ms, truncInt x0, truncInt x1, mf, obs, avg⟩
        if recomp then recompute junk st true true else some st

end MultiGp

end Limbo
