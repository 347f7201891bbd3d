import Verif.Model.MultiGp
import Verif.Spec.GpHist
import Verif.Spec.Mean

/-!
What a user of a `MultiGP` should believe after a sequence of calls: the data, and five yes/no facts.

* `r`: the centred observations the sub-models hold are the ones of the present data and mean function;
* `k`, `m`, `a`, `i`: as for the single GP (`Verif/Spec/GpHist.lean`), for every sub-model.
-/

namespace Limbo

/-- The user's bookkeeping. -/
structure MgAbs where
  xs : List (List ℝ)
  ys : List (List ℝ)
  r : Bool
  k : Bool
  m : Bool
  a : Bool
  i : Bool

/-- A new `MultiGP`. -/
def MgAbs.init : MgAbs := ⟨[], [], true, true, true, true, true⟩

/-- How each call changes the bookkeeping; `ind` tells that the mean function does not depend on the observations. -/
def MgAbs.step (ind : Bool) (A : MgAbs) : MultiGp.Op → MgAbs
  | .compute xs ys ck => ⟨xs, ys, true, ck, true, ck, ck⟩
  | .add x y => ⟨A.xs ++ [x], A.ys ++ [y], A.r && ind || A.xs.isEmpty, A.k, true, A.k, true⟩
  | .recompute um uk =>
    if A.xs.isEmpty then A
    else if um then ⟨A.xs, A.ys, true, uk, true, uk, uk⟩
    else { A with k := A.k || uk, a := A.m && (A.k || uk), i := A.i || uk }
  | .setMeanParams _ => { A with r := A.r && A.xs.isEmpty }
  | .setKernelParams _ _ => { A with k := A.k && A.xs.isEmpty, a := A.a && A.xs.isEmpty, i := A.i && A.xs.isEmpty }
  | .hpOpt _ _ _ => if A.xs.isEmpty then A else { A with k := true, a := A.m, i := true }
  | .load s r => ⟨(s.subs.headD ⟨none, none, [], .empty, .empty, .empty⟩).samples, s.observations, r, r, r, r, r⟩

/-- The bookkeeping after a sequence of calls. -/
def MgAbs.run (ind : Bool) (A : MgAbs) (ops : List (MultiGp.Op × MultiJunk)) : MgAbs := ops.foldl (fun A o => A.step ind o.1) A

/-- An archive that is read must be consistent (`load` does not check it): a data set, one sub-model per output, each with these inputs
and one output. -/
def MultiGp.Op.Sane : MultiGp.Op → Prop
  | .load s _ => ∃ xs din dout, DataSet xs s.observations din dout ∧ s.dims = ((din : Int), (dout : Int)) ∧ s.subs.length = dout ∧
      ∀ b ∈ s.subs, b.samples = xs ∧ DataSet xs (rowsOf b.observations) din 1
  | _ => True

/-- The mean function does not look at the observations. -/
def MeanImpl.IgnoresData (M : MeanImpl) : Prop := ∀ (s : M.St) (x : List ℝ) (mo mo' : Nat → ℝ) (c : Nat), M.op s x mo c = M.op s x mo' c

/-- `st` is the state of a `MultiGP`, built with either constructor, after some calls that did not fail; `A` is the user's bookkeeping. -/
def MgReach (E : GpEnv) (ind : Bool) (A : MgAbs) (st : MultiGpState E) : Prop :=
  (ind = true → E.M.IgnoresData) ∧
  ∃ (ops : List (MultiGp.Op × MultiJunk)) (start : MultiGpState E),
    (start = MultiGp.new E ∨ ∃ u din dout, start = MultiGp.newDims E u din dout) ∧ (∀ o ∈ ops, o.1.Sane) ∧
    MultiGp.run start ops = some st ∧ A = MgAbs.init.run ind ops

/-- Everything a user set is reflected in the fit. -/
def MgAbs.UpToDate (A : MgAbs) : Prop := A.xs ≠ [] ∧ A.r = true ∧ A.k = true ∧ A.m = true ∧ A.a = true

/-- The prior mean function given the observations. -/
noncomputable def MultiGp.meanFn {E : GpEnv} (mf : E.M.St) (ys : List (List ℝ)) (dout : Nat) (v : List ℝ) (c : Nat) : ℝ :=
  E.M.op mf v (fun c => if c < dout then dataMeanOf ys c else 0) c

/-- Component `c` of the centred observations, as one-dimensional observations. -/
def centred (m : List ℝ → Nat → ℝ) (xs ys : List (List ℝ)) (c : Nat) : List (List ℝ) := List.zipWith (fun x y => [at' y c - m x c]) xs ys

end Limbo
