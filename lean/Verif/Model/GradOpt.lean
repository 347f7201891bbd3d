import Verif.Model.Tools

/-!
Model of the gradient-based optimizers `opt/rprop.hpp`, `opt/gradient_ascent.hpp`, `opt/adam.hpp`.
Each model also returns the *trace* of the points on which the objective was queried (ghost data).
-/

namespace Limbo

variable {α : Type}

/-! ## Rprop -/

/-- Loop variables of `Rprop::operator()` (`opt/rprop.hpp:96-110`); `trace`, `steps` are ghosts:
queried points and the `delta` vectors used. -/
structure RpropState (α : Type) where
  delta : List α
  gradOld : List α
  params : List α
  bestParams : List α
  best : α
  trace : List (List α)
  steps : List (List α)

/-- Body of the loop over coordinates (`opt/rprop.hpp:122-136`).
Arguments: `gg = grad_old(j)` after `cwiseProduct`, `g = grad(j)`, `d = delta(j)`, `p = params(j)`.
Result: new `delta(j)`, `grad(j)`, `params(j)`. -/
def rpropCoord [Scalar α] (bounded : Bool) (gg g d p : α) : α × α × α :=
  let (d, g) :=
    if lt (lit 0) gg then (stdMin (d * lit (12/10)) (lit 50), g)
    else if lt gg (lit 0) then (stdMax (d * lit (1/2)) (lit (1/1000000)), lit 0)
    else (d, g)
  let p := p + (lit (-(signum g) : Int)) * d
  let p := if bounded && lt p (lit 0) then lit 0 else p
  let p := if bounded && lt (lit 1) p then lit 1 else p
  (d, g, p)

/-- The loop over `j` (`opt/rprop.hpp:122-136`); the coordinates are independent. -/
def rpropCoords [Scalar α] (bounded : Bool) :
    List α → List α → List α → List α → List (α × α × α)
  | gg :: ggs, g :: gs, d :: ds, p :: ps =>
    rpropCoord bounded gg g d p :: rpropCoords bounded ggs gs ds ps
  | _, _, _, _ => []

/-- One iteration (`opt/rprop.hpp:112-141`).  The Boolean is `true` when the loop must `break`.
`none`: the objective returned no gradient (failed assertion, `opt/optimizer.hpp:68`) or one of the wrong size. -/
def rpropStep [ScalarFn α] (f : ObjFn α) (bounded : Bool) (epsStop : α) (s : RpropState α) :
    Option (RpropState α × Bool) :=
  let perf := f s.params true
  match perf.2 with
  | none => none
  | some g =>
    if g.length = s.params.length then
      let lik := perf.1
      let better := lt s.best lik
      let best := if better then lik else s.best
      let bestParams := if better then s.params else s.bestParams
      let grad := g.map (fun x => -x)
      let gg := List.zipWith (· * ·) s.gradOld grad
      let r := rpropCoords bounded gg grad s.delta s.params
      let delta := r.map (·.1)
      let grad := r.map (·.2.1)
      let params := r.map (·.2.2)
      some ({ delta := delta, gradOld := grad, params := params, bestParams := bestParams, best := best,
              trace := s.trace ++ [s.params], steps := s.steps ++ [delta] },
            lt (ScalarFn.norm grad) epsStop)
    else none

/-- The `for (i = 0; i < iterations; ++i)` loop (`opt/rprop.hpp:112`). -/
def rpropLoop [ScalarFn α] (f : ObjFn α) (bounded : Bool) (epsStop : α) :
    Nat → RpropState α → Option (RpropState α)
  | 0, s => some s
  | n + 1, s =>
    match rpropStep f bounded epsStop s with
    | none => none
    | some (s', true) => some s'
    | some (s', false) => rpropLoop f bounded epsStop n s'

/-- Initial loop state (`opt/rprop.hpp:88-110`). -/
def rpropInit [Scalar α] (init : List α) (bounded : Bool) : RpropState α :=
  let params := clampIf bounded init
  { delta := init.map (fun _ => lit (1/10))
    gradOld := init.map (fun _ => lit 0)
    params := params
    bestParams := params
    best := negInf
    trace := []
    steps := [] }

/-- `Rprop::operator()` (`opt/rprop.hpp:83-144`): final state; the returned vector is `bestParams`.
`iterations` is a C++ `int` (a negative value means no iteration). The assertion `eps_stop >= 0` is line 86. -/
def rpropRun [ScalarFn α] (f : ObjFn α) (init : List α) (bounded : Bool) (iterations : Int) (epsStop : α) :
    Option (RpropState α) :=
  if le (lit 0) epsStop then rpropLoop f bounded epsStop iterations.toNat (rpropInit init bounded)
  else none

/-- Rprop as an optimizer functor. -/
def rprop [ScalarFn α] (iterations : Int) (epsStop : α) : Optz α := fun f init bounded =>
  (rpropRun f init bounded iterations epsStop).map (·.bestParams)

/-! ## Gradient ascent -/

/-- Loop variables of `GradientAscent::operator()`; `trace` is a ghost. -/
structure GaState (α : Type) where
  v : List α
  params : List α
  trace : List (List α)

/-- Parameters of `GradientAscent` (`opt/gradient_ascent.hpp:59-79`). -/
structure GaParams (α : Type) where
  iterations : Int
  alpha : α
  gamma : α
  nesterov : Bool
  epsStop : α

/-- The point at which the gradient is queried (`opt/gradient_ascent.hpp:122-136`). -/
def gaQuery [Scalar α] (P : GaParams α) (bounded : Bool) (s : GaState α) : List α :=
  if P.nesterov then clampIf bounded (List.zipWith (fun p v => p + P.gamma * v) s.params s.v)
  else s.params

/-- One iteration (`opt/gradient_ascent.hpp:120-155`). -/
def gaStep [ScalarFn α] (P : GaParams α) (f : ObjFn α) (bounded : Bool) (s : GaState α) :
    Option (GaState α × Bool) :=
  let q := gaQuery P bounded s
  match (f q true).2 with
  | none => none
  | some g =>
    if g.length = s.params.length then
      let v := List.zipWith (fun v g => P.gamma * v + P.alpha * g) s.v g
      let params := clampIf bounded (List.zipWith (fun p v => p + v) s.params v)
      some ({ v := v, params := params, trace := s.trace ++ [q] },
        lt (ScalarFn.norm (List.zipWith (fun a b => a - b) s.params params)) P.epsStop)
    else none

/-- The iteration loop (`opt/gradient_ascent.hpp:120`). -/
def gaLoop [ScalarFn α] (P : GaParams α) (f : ObjFn α) (bounded : Bool) :
    Nat → GaState α → Option (GaState α)
  | 0, s => some s
  | n + 1, s =>
    match gaStep P f bounded s with
    | none => none
    | some (s', true) => some s'
    | some (s', false) => gaLoop P f bounded n s'

/-- Initial loop state (`opt/gradient_ascent.hpp:101-118`). -/
def gaInit [Scalar α] (init : List α) (bounded : Bool) : GaState α :=
  { v := init.map (fun _ => lit 0), params := clampIf bounded init, trace := [] }

/-- `GradientAscent::operator()` (`opt/gradient_ascent.hpp:95-158`): final state; the result is `params`.
Lines 98-99 assert `0 <= gamma < 1`, `alpha >= 0`. -/
def gaRun [ScalarFn α] (P : GaParams α) (f : ObjFn α) (init : List α) (bounded : Bool) :
    Option (GaState α) :=
  if le (lit 0) P.gamma && lt P.gamma (lit 1) && le (lit 0) P.alpha then
    gaLoop P f bounded P.iterations.toNat (gaInit init bounded)
  else none

/-! ## Adam -/

/-- Loop variables of `Adam::operator()`; `trace` is a ghost. -/
structure AdamState (α : Type) where
  m : List α
  v : List α
  b1t : α
  b2t : α
  params : List α
  trace : List (List α)

/-- Parameters of `Adam` (`opt/adam.hpp:59-79`). -/
structure AdamParams (α : Type) where
  iterations : Int
  alpha : α
  b1 : α
  b2 : α
  epsStop : α

/-- The update of one coordinate (`opt/adam.hpp:133-136`), given the new moments. -/
def adamCoord [ScalarFn α] (P : AdamParams α) (b1t b2t m v p : α) : α :=
  p + (P.alpha * (m / (lit 1 - b1t))) / (ScalarFn.sqrt (v / (lit 1 - b2t)) + lit (1/100000000))

/-- Coordinate-wise loop for the previous definition. -/
def adamCoords [ScalarFn α] (P : AdamParams α) (b1t b2t : α) : List α → List α → List α → List α
  | m :: ms, v :: vs, p :: ps => adamCoord P b1t b2t m v p :: adamCoords P b1t b2t ms vs ps
  | _, _, _ => []

/-- One iteration (`opt/adam.hpp:125-152`). -/
def adamStep [ScalarFn α] (P : AdamParams α) (f : ObjFn α) (bounded : Bool) (s : AdamState α) :
    Option (AdamState α × Bool) :=
  match (f s.params true).2 with
  | none => none
  | some g =>
    if g.length = s.params.length then
      let m := List.zipWith (fun m g => P.b1 * m + (lit 1 - P.b1) * g) s.m g
      let v := List.zipWith (fun v g => P.b2 * v + (lit 1 - P.b2) * (g * g)) s.v g
      let params := clampIf bounded (adamCoords P s.b1t s.b2t m v s.params)
      some ({ m := m, v := v, b1t := s.b1t * P.b1, b2t := s.b2t * P.b2, params := params,
              trace := s.trace ++ [s.params] },
        lt (ScalarFn.norm (List.zipWith (fun a b => a - b) s.params params)) P.epsStop)
    else none

/-- The iteration loop (`opt/adam.hpp:125`). -/
def adamLoop [ScalarFn α] (P : AdamParams α) (f : ObjFn α) (bounded : Bool) :
    Nat → AdamState α → Option (AdamState α)
  | 0, s => some s
  | n + 1, s =>
    match adamStep P f bounded s with
    | none => none
    | some (s', true) => some s'
    | some (s', false) => adamLoop P f bounded n s'

/-- Initial loop state (`opt/adam.hpp:102-123`). -/
def adamInit [Scalar α] (P : AdamParams α) (init : List α) (bounded : Bool) : AdamState α :=
  { m := init.map (fun _ => lit 0), v := init.map (fun _ => lit 0), b1t := P.b1, b2t := P.b2,
    params := clampIf bounded init, trace := [] }

/-- `Adam::operator()` (`opt/adam.hpp:95-155`): final state; the result is `params`.
Lines 98-100 assert `0 <= b1 < 1`, `0 <= b2 < 1`, `alpha >= 0`. -/
def adamRun [ScalarFn α] (P : AdamParams α) (f : ObjFn α) (init : List α) (bounded : Bool) :
    Option (AdamState α) :=
  if le (lit 0) P.b1 && lt P.b1 (lit 1) && le (lit 0) P.b2 && lt P.b2 (lit 1) && le (lit 0) P.alpha then
    adamLoop P f bounded P.iterations.toNat (adamInit P init bounded)
  else none

end Limbo
