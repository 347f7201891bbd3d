import Verif.Model.Wrappers

/-! Vocabulary for the wrappers: what a history of calls amounts to for the user. -/

namespace Limbo

namespace Nl

variable {α : Type}

/-- The dimension an object is tied to: that of the last explicit initialisation, else of the first optimisation. -/
def dimAfter : List (Op α) → Option Nat → Option Nat
  | [], d => d
  | .setup d :: ops, _ => dimAfter ops (some d)
  | .call _ x _ :: ops, d => dimAfter ops (some (d.getD x.length))
  | .ineq _ _ :: ops, d => dimAfter ops d
  | .eq _ _ :: ops, d => dimAfter ops d

/-- Whether a bounded optimisation in the object's dimension took place since the last explicit initialisation. -/
def boundedBefore : List (Op α) → Option Nat → Bool → Bool
  | [], _, b => b
  | .setup d :: ops, _, _ => boundedBefore ops (some d) false
  | .call _ x b :: ops, d, b' => boundedBefore ops (some (d.getD x.length)) (b' || (b && d.getD x.length == x.length))
  | .ineq _ _ :: ops, d, b => boundedBefore ops d b
  | .eq _ _ :: ops, d, b => boundedBefore ops d b

/-- The inequality constraints in force: those added after the object was tied to a dimension and since the last initialisation. -/
def ineqAfter : List (Op α) → Option Nat → List (ObjFn α × α) → List (ObjFn α × α)
  | [], _, l => l
  | .setup d :: ops, _, _ => ineqAfter ops (some d) []
  | .call _ x _ :: ops, d, l => ineqAfter ops (some (d.getD x.length)) l
  | .ineq f t :: ops, d, l => ineqAfter ops d (if d.isSome then l ++ [(f, t)] else l)
  | .eq _ _ :: ops, d, l => ineqAfter ops d l

/-- The equality constraints in force. -/
def eqAfter : List (Op α) → Option Nat → List (ObjFn α × α) → List (ObjFn α × α)
  | [], _, l => l
  | .setup d :: ops, _, _ => eqAfter ops (some d) []
  | .call _ x _ :: ops, d, l => eqAfter ops (some (d.getD x.length)) l
  | .ineq _ _ :: ops, d, l => eqAfter ops d l
  | .eq f t :: ops, d, l => eqAfter ops d (if d.isSome then l ++ [(f, t)] else l)

/-- The library keeps to the bounds: starting inside of them it ends inside of them. -/
def KeepsBounds [Scalar α] (lib : Lib α) : Prop :=
  ∀ r lo hi, r.cfg.bounds = some (lo, hi) → lo.length = r.start.length → hi.length = r.start.length →
    (∀ (i : Nat) (l x h : α), lo[i]? = some l → r.start[i]? = some x → hi[i]? = some h → le l x = true ∧ le x h = true) →
    (lib r).1.length = r.start.length ∧
    ∀ (i : Nat) (l x h : α), lo[i]? = some l → (lib r).1[i]? = some x → hi[i]? = some h → le l x = true ∧ le x h = true

end Nl

namespace Cma

variable {α : Type}

/-- A point of the box `[lo, hi]^d`. -/
def InBox [Scalar α] (lo hi : α) (d : Nat) (x : List α) : Prop := x.length = d ∧ ∀ c ∈ x, le lo c = true ∧ le c hi = true

/-- The library's transformation for a lower and an upper bound per coordinate (the lower one not above the upper one) maps into these
bounds. -/
def BoxSound [Scalar α] (lib : Lib α) : Prop :=
  ∀ lo hi : List α, lo.length = hi.length → (∀ (i : Nat) (l h : α), lo[i]? = some l → hi[i]? = some h → le l h = true) → ∀ g, ((lib.box lo hi).pheno g).length = lo.length ∧
    ∀ (i : Nat) (l x h : α), lo[i]? = some l → ((lib.box lo hi).pheno g)[i]? = some x → hi[i]? = some h → le l x = true ∧ le x h = true

/-- The transformation keeps the number of coordinates. -/
def GenoLen (lib : Lib α) : Prop := ∀ lo hi x, ((lib.box lo hi).geno x).length = x.length

/-- On this problem the library's best candidate is one it evaluated, and as good for it (it minimises) as any other one it evaluated. -/
def BestSound [Scalar α] (lib : Lib α) (p : Problem α) : Prop :=
  (lib.solve p).best ∈ (lib.solve p).candidates ∧
    ∀ c ∈ (lib.solve p).candidates, le (p.fit (p.point (lib.solve p).best)) (p.fit (p.point c)) = true

/-- The documentation of `defaults::opt_cmaes` (cmaes.hpp:64-138), as a table: what an object must be set to.  Where the text does not say
what happens at 0 the table follows the code (`fun_tolerance`, whose text says "if bigger than 0": see `C23_tolerance_at_zero`). -/
structure Documented [Scalar α] (P : Params α) (d0 : Settings α) (dim : Nat) (s : Settings α) : Prop where
  /-- "sets the version of cmaes to use" -/
  variant : s.algo = P.variant
  /-- "number of restarts of CMA-ES" -/
  restarts : s.restarts = P.restarts
  /-- "defines elitism strategy" -/
  elitism : s.elitism = P.elitism
  /-- "enables or disables uncertainty handling" -/
  uncertainty : s.uh = P.handleUncertainty
  /-- "maximum number of calls to the function to be optimized" -/
  max_evals : s.stop .maxFevals = true ∧ (0 ≤ P.maxFunEvals → s.maxFevals = P.maxFunEvals)
  /-- "if no max fun evals provided, we compute a recommended value" -/
  default_evals : P.maxFunEvals < 0 → s.maxFevals = 900 * (dim + 3) ^ 2
  /-- "maximum number of iterations" -/
  max_iters : s.stop .maxIter = true ∧ (0 ≤ P.maxIters → s.maxIter = P.maxIters)
  /-- "if no max iters provided, we put a safety limit" -/
  default_iters : P.maxIters < 0 → s.maxIter = 1000000
  /-- "enable/disable automatic max iterations" -/
  auto_iters : s.stop .autoMaxIter = P.autoMaxIters
  /-- "enable/disable stopping if getting the same function value repeatedly" -/
  equal_values : s.stop .equalFunVals = P.equalFunEvals
  stagnation : s.stop .stagnation = P.stagnation
  /-- "if bigger than 0, it enables the tolerance criteria" -/
  tolerance_on : lt P.funTolerance (lit 0) = false → s.stop .tolHistFun = true ∧ s.ftolerance = P.funTolerance
  tolerance_off : lt P.funTolerance (lit 0) = true → s.stop .tolHistFun = false ∧ s.ftolerance = d0.ftolerance
  /-- "tolerance for convergence … IGNORED if negative" -/
  xtol_on : lt (lit 0) P.xrelTolerance = true → s.stop .tolX = true ∧ s.xtolerance = P.xrelTolerance
  xtol_off : lt (lit 0) P.xrelTolerance = false → s.stop .tolX = false ∧ s.xtolerance = d0.xtolerance
  /-- "if bigger than 0, enables the function target criteria" -/
  target_on : lt (lit 0) P.funTarget = true → s.stop .fTarget = true
  target_off : lt (lit 0) P.funTarget = false → s.stop .fTarget = false ∧ s.ftarget = d0.ftarget
  /-- "computes initial objective function value" -/
  initial : s.initialFvalue = P.funComputeInitial
  /-- "enables or disables verbose mode" -/
  verbose : s.quiet = !P.verbose
  /-- "enable stopping criteria because of mal-conditions", "disable stopping criteria for partial success" -/
  others : s.stop .conditionCov = true ∧ s.stop .tolUpSigma = true ∧ s.stop .noEffectAxis = false ∧ s.stop .noEffectCoor = false

end Cma

end Limbo
