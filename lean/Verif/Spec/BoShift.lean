import Verif.Spec.BoAcqui
import Verif.Spec.Bo

/-! Vocabulary for "adding a constant to the objective does not change the search". -/

namespace Limbo

/-- The vector `v` with `t i` added to component `i`. -/
noncomputable def shiftX (t : Nat → ℝ) (v : List XR) : List XR := v.mapIdx fun i y => y + XR.fin (t i)

/-- The same on vectors of reals. -/
def shiftR (t : Nat → ℝ) (v : List ℝ) : List ℝ := v.mapIdx fun i y => y + t i

/-- A call that returns a vector returns the shifted vector; a call that throws still throws. -/
noncomputable def shiftRes (t : Nat → ℝ) : CallRes XR → CallRes XR
  | .ret v => .ret (shiftX t v)
  | .threw => .threw

variable {M : Type}

/-- `sf'` is the objective `sf` plus the constant `t`: same dimensions, and after the same evaluations (it may be noisy, or change with time) its next result
is that of `sf`, shifted. -/
structure ShiftedFun (t : Nat → ℝ) (sf sf' : StateFun XR M) : Prop where
  dimIn : sf'.dimIn = sf.dimIn
  dimOut : sf'.dimOut = sf.dimOut
  call : ∀ tr tr' x, callPts tr' = callPts tr → sf'.call tr' x = shiftRes t (sf.call tr x)

/-- Two optimizers have seen the same points, with shifted observations, and count the same iterations. -/
structure SameSearch (t : Nat → ℝ) (q q' : BoState XR M) : Prop where
  samples : q'.samples = q.samples
  observations : q'.observations = q.observations.map (shiftX t)
  cur : q'.currentIteration = q.currentIteration
  tot : q'.totalIterations = q.totalIterations
  pts : callPts q'.trace = callPts q.trace

/-- The same calls, on the shifted objective and with shifted data. -/
def ShiftedOp (t : Nat → ℝ) (afun : List XR → XR) : BoOp XR M → BoOp XR M → Prop
  | .optimize sf a reset fuel, .optimize sf' a' reset' fuel' => ShiftedFun t sf sf' ∧ a = afun ∧ a' = afun ∧ reset' = reset ∧ fuel' = fuel
  | .addNewSample s v, .addNewSample s' v' => s' = s ∧ v' = shiftX t v
  | .evalAndAdd sf x, .evalAndAdd sf' x' => ShiftedFun t sf sf' ∧ x' = x
  | _, _ => False

/-- The second result is the same as the first, unless one of them is undefined behaviour. -/
def SameOpt : OptRes XR → OptRes XR → Prop
  | .point x, .point x' => x' = x
  | .threw, .threw => True
  | .ub, _ => True
  | _, .ub => True
  | _, _ => False

/-- Parts of an optimizer that do not look at the values of the observations: initial points, starting points and stopping criteria are the same in two
optimizers that have searched in the same way. -/
structure BlindParts (t : Nat → ℝ) (afun : List XR → XR) (P : BoParams XR M) : Prop where
  init : ∀ q q' d, SameSearch t q q' → P.initPts q' d = P.initPts q d
  start : ∀ q q' d, SameSearch t q q' → P.startPt q' d = P.startPt q d
  stop : ∀ c ∈ P.stop, ∀ q q', SameSearch t q q' → c q' afun = c q afun

/-- The inner optimizer, given the same objective after the same search, chooses the same point. -/
def BlindOpt (t : Nat → ℝ) (opt : BoState XR M → ObjFn XR → List XR → Bool → OptRes XR) : Prop :=
  ∀ q q', SameSearch t q q' → ∀ f x b, SameOpt (opt q f x b) (opt q' f x b)

/-- The inner optimizer, given two objectives that differ by a constant after the same search, chooses the same point. -/
def ConstBlindOpt (t : Nat → ℝ) (opt : BoState XR M → ObjFn XR → List XR → Bool → OptRes XR) : Prop :=
  ∀ q q', SameSearch t q q' → ∀ (f f' : ObjFn XR) (c : ℝ), (∀ x g, (f' x g).1 = (f x g).1 + XR.fin c ∧ (f' x g).2 = (f x g).2) →
    ∀ x b, SameOpt (opt q f x b) (opt q' f' x b)

end Limbo
