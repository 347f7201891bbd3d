import Verif.Basic.Xt
import Verif.Model.Gp

/-!
`limbo::experimental::model::GPParego` (experimental/model/gp_parego.hpp) on top of `model::GP`.

The scalarisation is written over any `Scalar` (so that NaN is covered); the model built on it is over exact reals with IEEE special values,
where a scalarised value that is not a finite number has no counterpart in the real-valued GP and ends the run (`none`).
-/

namespace Limbo

namespace Parego

/-- Eigen's `sum()`, left to right (Eigen does not specify the order). -/
def sumCoeff {α : Type} [Scalar α] : List α → α
  | [] => lit 0
  | x :: xs => xs.foldl (fun a b => a + b) x

/-- Eigen's `maxCoeff()`; `none` = empty vector (assertion). -/
def maxCoeff {α : Type} [Scalar α] : List α → Option α
  | [] => none
  | x :: xs => some (xs.foldl (fun a b => if lt a b then b else a) x)

/-- `lambda = random_vector(_nb_objs); sum = lambda.sum(); lambda = lambda / sum` — gp_parego.hpp:105-107; `r` is the random vector. -/
def weights {α : Type} [Scalar α] (r : List α) : List α := r.map fun a => a / sumCoeff r

/-- One observation: `y = (lambda * x).maxCoeff(); s = (lambda * x).sum(); y + rho * s` — gp_parego.hpp:111-113.  `none` = sizes differ
(Eigen's assertion). -/
def scalarizeOne {α : Type} [Scalar α] (rho : α) (lam x : List α) : Option α :=
  if lam.length = x.length then
    let p := List.zipWith (fun a b => a * b) lam x
    (maxCoeff p).map fun y => y + rho * sumCoeff p
  else none

/-- `_scalarize_obs(observations)` — gp_parego.hpp:103-117. -/
def scalarizeObs {α : Type} [Scalar α] (rho : α) (r : List α) (ys : List (List α)) : Option (List (List α)) :=
  ys.mapM fun x => (scalarizeOne rho (weights r) x).map fun v => [v]

/-- A finite number. -/
def toReal : XR → Option ℝ
  | .fin r => some r
  | _ => none

/-- Members added by `GPParego` — gp_parego.hpp:101-102. -/
structure St (E : GpEnv) where
  gp : GpState E
  nbObjs : Nat
  raw : List (List ℝ)

variable {E : GpEnv}

/-- What one call depends on besides its arguments: the random numbers drawn and the uninitialised memory. -/
structure Ctx where
  draw : Nat → ℝ
  junk : Nat → Nat → ℝ

/-- `tools::random_vector(n)` (`tools/random_generator.hpp:130-134, 147-152`). -/
def Ctx.randomVector (c : Ctx) (n : Nat) : List ℝ := (List.range n).map c.draw

/-- `compute(samples, observations)` — gp_parego.hpp:83-90.  `observations[0]` of an empty vector is undefined.  `rho` is
`Params::model_gp_parego::rho()`. -/
noncomputable def compute (rho : ℝ) (c : Ctx) (st : St E) (xs ys : List (List ℝ)) : Option (St E) :=
  match ys with
  | [] => none
  | y0 :: _ =>
    let st := { st with raw := ys, nbObjs := y0.length }
    (scalarizeObs (XR.fin rho) ((c.randomVector st.nbObjs).map XR.fin) (ys.map fun y => y.map XR.fin)).bind fun zs =>
    (zs.mapM fun (z : List XR) => z.mapM toReal).bind fun zs =>
    (Gp.compute c.junk st.gp xs zs true).map fun g => { st with gp := g }

/-- `add_sample(sample, observation)` — gp_parego.hpp:92-98. -/
noncomputable def addSample (rho : ℝ) (c : Ctx) (st : St E) (x y : List ℝ) : Option (St E) :=
  let g := { st.gp with samples := st.gp.samples ++ [x] }
  let st := { st with gp := g, raw := st.raw ++ [y] }
  compute rho c st g.samples st.raw

/-- `GPParego()` — gp_parego.hpp:81 (`_nb_objs` is uninitialised: `n`). -/
noncomputable def new (E : GpEnv) (u : ℝ × ℝ) (n : Nat) : St E := ⟨Gp.new E u, n, []⟩

/-- `GPParego(dim_in, dim_out)` — gp_parego.hpp:82. -/
noncomputable def newDims (E : GpEnv) (u : ℝ × ℝ) (din dout : Nat) : St E := ⟨Gp.newDims E u din 1, dout, []⟩

/-- A call on the model: the two functions it redefines, or a function inherited from `GP`. -/
inductive Op where
  | compute (xs ys : List (List ℝ))
  | add (x y : List ℝ)
  | inherited (op : Gp.Op)

/-- One call. -/
noncomputable def step (rho : ℝ) (st : St E) (op : Op) (c : Ctx) : Option (St E) :=
  match op with
  | .compute xs ys => compute rho c st xs ys
  | .add x y => addSample rho c st x y
  | .inherited op => (Gp.step st.gp op c.junk).map fun g => { st with gp := g }

/-- A sequence of calls. -/
noncomputable def run (rho : ℝ) : St E → List (Op × Ctx) → Option (St E)
  | st, [] => some st
  | st, o :: os => (step rho st o.1 o.2).bind fun st => run rho st os

end Parego

end Limbo
