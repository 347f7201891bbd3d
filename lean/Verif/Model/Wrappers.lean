import Verif.Basic.Opt

/-!
Model of the wrappers around NLopt (`opt/nlopt_base.hpp`, `nlopt_grad.hpp`, `nlopt_no_grad.hpp`) and libcmaes (`opt/cmaes.hpp`).
The two libraries are parameters: arbitrary functions from the problem they are given to an outcome.
-/

namespace Limbo

/-! ## NLopt -/

namespace Nl

variable {α : Type}

/-- `nlopt_func` — nlopt_base.hpp:135-151: value of the user's function and, if the library asks for it (non-empty `grad`), its gradient
written over `grad`.  A function without gradient, or a gradient longer than `grad`, is an error (`none`). -/
def nloptFunc (f : ObjFn α) (x grad : List α) : Option (α × List α) :=
  if grad.isEmpty then some (evalNoGrad f x, grad)
  else match f x true with
    | (_, none) => none
    | (v, some g) => if g.length ≤ grad.length then some (v, g ++ grad.drop g.length) else none

/-- The settings of an `nlopt::opt` object (no bounds = infinite bounds). -/
structure Cfg (α : Type) where
  dim : Nat
  bounds : Option (List α × List α)
  ineq : List (ObjFn α × α)
  eq : List (ObjFn α × α)
  maxeval : Int
  ftol : α
  xtol : α

/-- How `nlopt::opt::optimize` ends: normally, with one of the exceptions caught by the wrapper, or with another one. -/
inductive Status where
  | ok | roundoff | invalid | runtime | other

/-- A run of the library: its settings, the function to maximise, the starting point. -/
structure Run (α : Type) where
  cfg : Cfg α
  objective : List α → List α → Option (α × List α)
  start : List α

/-- The library: the final content of `x` and how it ended. -/
abbrev Lib (α : Type) := Run α → List α × Status

/-- Parameters `opt_nloptgrad` / `opt_nloptnograd`. -/
structure Params (α : Type) where
  iterations : Int
  ftol : α
  xtol : α

/-- The wrapper object: `_opt`, valid if `_initialized`. -/
abbrev Obj (α : Type) := Option (Cfg α)

/-- `initialize(dim)` — nlopt_base.hpp:69-73, nlopt_grad.hpp:109-131, nlopt_no_grad.hpp:113-141. -/
def setup (P : Params α) (dim : Nat) : Cfg α := ⟨dim, none, [], [], P.iterations, P.ftol, P.xtol⟩

/-- Outcome of a call: the object afterwards, the library run if one took place, and the returned point (`none` = an exception). -/
structure Out (α : Type) where
  obj : Obj α
  run : Option (Run α)
  ret : Option (List α)

/-- `operator()(f, init, bounded)` — nlopt_base.hpp:75-111.  `none` = undefined (`&x[0]` of an empty vector).  With a dimension other than
that of the object, `set_lower_bounds` throws out of the call, and `optimize` throws `invalid_argument`, which is caught. -/
def call [Scalar α] (P : Params α) (lib : Lib α) (o : Obj α) (f : ObjFn α) (init : List α) (bounded : Bool) : Option (Out α) :=
  if init.isEmpty then none
  else
    let c := o.getD (setup P init.length)
    if bounded ∧ c.dim ≠ init.length then some ⟨some c, none, none⟩
    else
      let c := if bounded then { c with bounds := some (List.replicate init.length (lit 0), List.replicate init.length (lit 1)) } else c
      if c.dim ≠ init.length then some ⟨some c, none, some init⟩
      else
        let r : Run α := ⟨c, nloptFunc f, init⟩
        match lib r with
        | (_, .other) => some ⟨some c, some r, none⟩
        | (x, _) => some ⟨some c, some r, some x⟩

/-- `add_inequality_constraint` — nlopt_base.hpp:114-121. -/
def addIneq (o : Obj α) (f : ObjFn α) (tol : α) : Obj α := o.map fun c => { c with ineq := c.ineq ++ [(f, tol)] }

/-- `add_equality_constraint` — nlopt_base.hpp:124-131. -/
def addEq (o : Obj α) (f : ObjFn α) (tol : α) : Obj α := o.map fun c => { c with eq := c.eq ++ [(f, tol)] }

/-- Calls on a wrapper object. -/
inductive Op (α : Type) where
  | setup (dim : Nat)
  | call (f : ObjFn α) (init : List α) (bounded : Bool)
  | ineq (f : ObjFn α) (tol : α)
  | eq (f : ObjFn α) (tol : α)

/-- One call on the object. -/
def step [Scalar α] (P : Params α) (lib : Lib α) (o : Obj α) : Op α → Option (Obj α)
  | .setup d => some (some (setup P d))
  | .call f x b => (call P lib o f x b).map (·.obj)
  | .ineq f t => some (addIneq o f t)
  | .eq f t => some (addEq o f t)

/-- A sequence of calls. -/
def steps [Scalar α] (P : Params α) (lib : Lib α) : List (Op α) → Obj α → Option (Obj α)
  | [], o => some o
  | op :: ops, o => (step P lib o op).bind (steps P lib ops)

end Nl

/-! ## CMA-ES -/

namespace Cma

variable {α : Type}

/-- Stopping criteria of libcmaes. -/
inductive Stop where
  | maxFevals | maxIter | autoMaxIter | tolHistFun | fTarget | equalFunVals | tolX | conditionCov | tolUpSigma | noEffectAxis | noEffectCoor
  | stagnation
  deriving DecidableEq

/-- `Params::opt_cmaes` — cmaes.hpp:63-138. -/
structure Params (α : Type) where
  restarts : Int
  maxFunEvals : Int
  maxIters : Int
  autoMaxIters : Bool
  equalFunEvals : Bool
  stagnation : Bool
  funTolerance : α
  xrelTolerance : α
  funTarget : α
  funComputeInitial : Bool
  variant : Int
  elitism : Int
  handleUncertainty : Bool
  verbose : Bool
  lbound : α
  ubound : α
  stochastic : Bool
  lambda : Int

/-- The parts of the library's `CMAParameters` object that the wrapper touches. -/
structure Settings (α : Type) where
  mtFeval : Bool
  algo : Int
  restarts : Int
  elitism : Int
  maxFevals : Int
  maxIter : Int
  stop : Stop → Bool
  ftolerance : α
  ftarget : α
  xtolerance : α
  initialFvalue : Bool
  uh : Bool
  quiet : Bool

/-- A call of one of the library's setters. -/
inductive Setter (α : Type) where
  | mtFeval (b : Bool)
  | algo (v : Int)
  | restarts (n : Int)
  | elitism (e : Int)
  | maxFevals (n : Int)
  | maxIter (n : Int)
  | stop (c : Stop) (b : Bool)
  | ftolerance (t : α)
  | ftarget (t : α)
  | xtolerance (t : α)
  | initialFvalue (b : Bool)
  | uh (b : Bool)
  | quiet (b : Bool)

/-- What a setter does: it overwrites its own field (`set_stopping_criteria` the entry of its criterion). -/
def Settings.set (s : Settings α) : Setter α → Settings α
  | .mtFeval b => { s with mtFeval := b }
  | .algo v => { s with algo := v }
  | .restarts n => { s with restarts := n }
  | .elitism e => { s with elitism := e }
  | .maxFevals n => { s with maxFevals := n }
  | .maxIter n => { s with maxIter := n }
  | .stop c b => { s with stop := fun c' => if c' = c then b else s.stop c' }
  | .ftolerance t => { s with ftolerance := t }
  | .ftarget t => { s with ftarget := t }
  | .xtolerance t => { s with xtolerance := t }
  | .initialFvalue b => { s with initialFvalue := b }
  | .uh b => { s with uh := b }
  | .quiet b => { s with quiet := b }

/-- The calls made by `_set_common_params` — cmaes.hpp:266-344.  Simplified: the evaluation limit, computed as a double, converted to
`size_t` and then to the library's `int`, is kept as an integer. -/
def setters [Scalar α] (P : Params α) (dim : Nat) : List (Setter α) :=
  [.mtFeval true, .algo P.variant, .restarts P.restarts, .elitism P.elitism,
    .maxFevals (if P.maxFunEvals < 0 then 900 * (dim + 3) * (dim + 3) else P.maxFunEvals), .stop .maxFevals true,
    .maxIter (if P.maxIters < 0 then 1000000 else P.maxIters), .stop .maxIter true, .stop .autoMaxIter P.autoMaxIters]
  ++ (if lt P.funTolerance (lit 0) then [.stop .tolHistFun false] else [.stop .tolHistFun true, .ftolerance P.funTolerance])
  ++ (if lt (lit 0) P.funTarget then [.stop .fTarget true, .ftarget (-P.funTarget)] else [.stop .fTarget false])
  ++ [.stop .equalFunVals P.equalFunEvals]
  ++ (if lt (lit 0) P.xrelTolerance then [.stop .tolX true, .xtolerance P.xrelTolerance] else [.stop .tolX false])
  ++ [.stop .conditionCov true, .stop .tolUpSigma true, .stop .noEffectAxis false, .stop .noEffectCoor false,
    .stop .stagnation P.stagnation, .initialFvalue P.funComputeInitial, .uh P.handleUncertainty, .quiet (!P.verbose)]

/-- The library object after `_set_common_params`, from the state `d0` in which its constructor left it. -/
def settings [Scalar α] (P : Params α) (d0 : Settings α) (dim : Nat) : Settings α := (setters P dim).foldl Settings.set d0

/-- A box transformation of the library (`GenoPheno<pwqBoundStrategy>`). -/
structure GenoPheno (α : Type) where
  geno : List α → List α
  pheno : List α → List α

/-- What the library is asked to minimise: candidates are genotypes, the function sees their phenotypes. -/
structure Problem (α : Type) where
  fit : List α → α
  transform : Option (GenoPheno α)
  x0 : List α
  sigma : α
  lambda : Int
  settings : Settings α

/-- The point at which the library evaluates its function for a candidate. -/
def Problem.point (p : Problem α) (c : List α) : List α :=
  match p.transform with
  | some gp => gp.pheno c
  | none => c

/-- The solution object of the library: mean of the last distribution, best candidate seen (genotypes), and all candidates evaluated. -/
structure Solutions (α : Type) where
  xmean : List α
  best : List α
  candidates : List (List α)

/-- The library: the state of a new parameter object, the transformation for a lower and an upper bound per coordinate, and its solution for
a problem. -/
structure Lib (α : Type) where
  new : Settings α
  box : List α → List α → GenoPheno α
  solve : Problem α → Solutions α

/-- The wrapped function — cmaes.hpp:183-187. -/
def fitOf [Scalar α] (f : ObjFn α) (x : List α) : α := -(evalNoGrad f x)

/-- `std::abs`. -/
def absS [Scalar α] (x : α) : α := if lt x (lit 0) then -x else x

/-- The arrays `lbounds`, `ubounds` — cmaes.hpp:236-240. -/
def boundArrays (P : Params α) : Nat → List α × List α
  | 0 => ([], [])
  | n + 1 => ((boundArrays P n).1 ++ [P.lbound], (boundArrays P n).2 ++ [P.ubound])

/-- The problem handed to the library — cmaes.hpp:205-212 (unbounded), 234-251 (bounded). -/
def problem [Scalar α] (P : Params α) (lib : Lib α) (f : ObjFn α) (init : List α) (bounded : Bool) : Problem α :=
  if bounded then
    let gp := lib.box (boundArrays P init.length).1 (boundArrays P init.length).2
    ⟨fitOf f, some gp, gp.geno init, lit (1 / 2) * absS (P.ubound - P.lbound), P.lambda, settings P lib.new init.length⟩
  else ⟨fitOf f, none, init, lit (1 / 2), P.lambda, settings P lib.new init.length⟩

/-- `operator()(f, init, bounded)` — cmaes.hpp:178-194, 221-226, 258-263.  `none` is undefined behaviour: `x0.front()` of an empty vector
(cmaes.hpp:248).  The progress functions (cmaes.hpp:214-219, 251-256) only observe and are left out; the parameter `bounded` is a double in
the code, any nonzero value counts as true. -/
def call [Scalar α] (P : Params α) (lib : Lib α) (f : ObjFn α) (init : List α) (bounded : Bool) : Option (List α) :=
  let p := problem P lib f init bounded
  if bounded && p.x0.isEmpty then none
  else
    let s := lib.solve p
    let x := if P.stochastic || P.handleUncertainty then s.xmean else s.best
    match p.transform with
    | some gp => some (gp.pheno x)
    | none => some x

end Cma

end Limbo
