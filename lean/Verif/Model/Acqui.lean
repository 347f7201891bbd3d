import Mathlib.MeasureTheory.Integral.Bochner.Set
import Mathlib.MeasureTheory.Measure.Lebesgue.Basic
import Mathlib.Analysis.SpecialFunctions.Pow.Real
import Verif.Basic.Xt
import Verif.Model.Gp

/-!
Acquisition functions: acqui/ucb.hpp, acqui/gp_ucb.hpp, acqui/ei.hpp and experimental/acqui/eci.hpp, over exact reals.  Only `GP_UCB`
needs the special values of `double` (`log 0`, the square root of a negative number): its value is an `XR`.

Calling an acquisition function with `gradient = true` fails an assertion (`none`).
-/

namespace Limbo

/-- What an acquisition function sees of a model: `query`, `mu`, `samples` (`nb_samples()` is their number — gp.hpp:406-407) and
`dim_in`. -/
structure AModel where
  query : List ℝ → Option (List ℝ × ℝ)
  mu : List ℝ → Option (List ℝ)
  samples : List (List ℝ)
  dimIn : Nat

/-- A GP as seen by an acquisition function. -/
noncomputable def Gp.view {E : GpEnv} (st : GpState E) : AModel where
  query v := (Gp.query st v).map fun r => ((List.range st.dimOut.toNat).map r.1, r.2)
  mu v := (Gp.mu st v).map fun m => (List.range st.dimOut.toNat).map m
  samples := st.samples
  dimIn := st.dimIn.toNat

namespace Acqui

/-- `UCB::operator()` — ucb.hpp:81-90. -/
noncomputable def ucb (m : AModel) (afun : List ℝ → ℝ) (alpha : ℝ) (v : List ℝ) (gradient : Bool) : Option ℝ :=
  if gradient then none else (m.query v).map fun r => afun r.1 + alpha * √r.2

/-- `std::log` on `double` with exact arithmetic. -/
noncomputable def xlog : XR → XR
  | Xt.nan => (Xt.nan : Xt ℝ)
  | Xt.ninf => (Xt.nan : Xt ℝ)
  | Xt.pinf => (Xt.pinf : Xt ℝ)
  | Xt.fin x => if x = 0 then (Xt.ninf : Xt ℝ) else if x < 0 then (Xt.nan : Xt ℝ) else XR.fin (Real.log x)

/-- `_beta`, computed by the constructor of `GP_UCB` — gp_ucb.hpp:84-90.  `iteration` is an `int`; the optimizers never pass a negative
one. -/
noncomputable def gpUcbBeta (dimIn : Nat) (delta : ℝ) (iteration : Nat) : XR :=
  let nt : ℝ := (iteration : ℝ) ^ ((dimIn : ℝ) / 2 + 2)
  let delta3 := delta * 3
  let pi2 := Real.pi * Real.pi
  XR.sqrt (XR.fin 2 * xlog (XR.fin nt * XR.fin pi2 / XR.fin delta3))

/-- `GP_UCB::operator()` of an object built at `iteration` — gp_ucb.hpp:81-105. -/
noncomputable def gpUcb (m : AModel) (afun : List ℝ → ℝ) (delta : ℝ) (iteration : Nat) (v : List ℝ) (gradient : Bool) : Option XR :=
  if gradient then none
  else (m.query v).map fun r => XR.fin (afun r.1) + gpUcbBeta m.dimIn delta iteration * XR.sqrt (XR.fin r.2)

/-- `std::erfc(z)`. -/
noncomputable def erfc (z : ℝ) : ℝ := 2 / √Real.pi * ∫ t in Set.Ioi z, Real.exp (-t ^ 2)

/-- `0.5 * std::erfc(-Z / std::sqrt(2))` — ei.hpp:112, eci.hpp:101, 124. -/
noncomputable def capPhi (z : ℝ) : ℝ := 0.5 * erfc (-z / √2)

/-- `std::exp(-0.5 * std::pow(Z, 2.0)) / std::sqrt(2.0 * M_PI)` — ei.hpp:111, eci.hpp:100. -/
noncomputable def phi (z : ℝ) : ℝ := Real.exp (-0.5 * z ^ 2) / √(2 * Real.pi)

/-- `*std::max_element(rewards.begin(), rewards.end())`; dereferencing `end()` is undefined. -/
noncomputable def maxElement : List ℝ → Option ℝ
  | [] => none
  | r :: rs => some (rs.foldl (fun largest x => if largest < x then x else largest) r)

/-- `afun(_model.mu(s))` for every sample — ei.hpp:98-101. -/
noncomputable def rewards (m : AModel) (afun : List ℝ → ℝ) : List (List ℝ) → Option (List ℝ)
  | [] => some []
  | s :: ss => (m.mu s).bind fun y => (rewards m afun ss).map (afun y :: ·)

/-- Members of `EI` and `ECI`: `_nb_samples` and `_f_max` (uninitialised at first) — ei.hpp:118-120. -/
structure EiSt where
  nb : Int
  fmax : ℝ

/-- Constructor — ei.hpp:76; `u` is the content of the uninitialised `_f_max`. -/
def EiSt.new (u : ℝ) : EiSt := ⟨-1, u⟩

/-- Refresh the cached best prediction if the number of samples changed — ei.hpp:96-105, eci.hpp:85-94. -/
noncomputable def EiSt.refresh (m : AModel) (afun : List ℝ → ℝ) (s : EiSt) : Option EiSt :=
  if s.nb ≠ (m.samples.length : Int) then
    (rewards m afun m.samples).bind fun rs => (maxElement rs).map fun f => ⟨(m.samples.length : Int), f⟩
  else some s

/-- `EI::operator()`: the changed cache and the value — ei.hpp:82-115. -/
noncomputable def ei (m : AModel) (afun : List ℝ → ℝ) (jitter : ℝ) (s : EiSt) (v : List ℝ) (gradient : Bool) : Option (EiSt × ℝ) :=
  if gradient then none
  else (m.query v).bind fun r =>
    let sigma := √r.2
    if sigma < 1e-10 ∨ m.samples.length < 1 then some (s, 0)
    else (s.refresh m afun).map fun s =>
      let X := afun r.1 - s.fmax - jitter
      let Z := X / sigma
      (s, X * capPhi Z + sigma * phi Z)

/-- `ECI::_pf` — eci.hpp:113-127. -/
noncomputable def pf (c : AModel) (afun : List ℝ → ℝ) (v : List ℝ) : Option ℝ :=
  (c.query v).map fun r =>
    let sigma := √r.2
    if sigma < 1e-10 ∨ c.samples.length < 1 then 1
    else
      let Z := (afun r.1 - 1) / sigma
      capPhi Z

/-- `ECI::operator()` — eci.hpp:72-104. -/
noncomputable def eci (m c : AModel) (afun : List ℝ → ℝ) (jitter : ℝ) (s : EiSt) (v : List ℝ) (gradient : Bool) : Option (EiSt × ℝ) :=
  if gradient then none
  else (m.query v).bind fun r =>
    let sigma := √r.2
    if sigma < 1e-10 ∨ m.samples.length < 1 then some (s, 0)
    else (s.refresh m afun).bind fun s =>
      let X := afun r.1 - s.fmax - jitter
      let Z := X / sigma
      (pf c afun v).map fun p => (s, p * (X * capPhi Z + sigma * phi Z))

/-! ### One `EI` object called by several threads

`Cmaes` evaluates the population with several threads and `ParallelRepeater` runs several optimizers at once; both call the *same*
acquisition object (`bayes_opt/boptimizer.hpp:151-156` captures it by reference). -/

/-- Shared members `_nb_samples`, `_f_max`, and for every thread the outcome of its test and its returned value. -/
structure EiMem where
  nb : Int
  fmax : ℝ
  stale : Nat → Bool
  ret : Nat → Option ℝ

/-- Before the threads start. -/
def EiMem.start (s : EiSt) : EiMem := ⟨s.nb, s.fmax, fun _ => false, fun _ => none⟩

/-- ei.hpp:96 — the test. -/
def aTest (n : Nat) (i : Nat) (M : EiMem) : EiMem := { M with stale := fun j => if j = i then decide (M.nb ≠ (n : Int)) else M.stale j }

/-- ei.hpp:103 — `_nb_samples = _model.nb_samples()`. -/
def aSetNb (n : Nat) (i : Nat) (M : EiMem) : EiMem := if M.stale i then { M with nb := (n : Int) } else M

/-- ei.hpp:104 — `_f_max = *std::max_element(...)`. -/
def aSetMax (best : ℝ) (i : Nat) (M : EiMem) : EiMem := if M.stale i then { M with fmax := best } else M

/-- ei.hpp:107-114 — read `_f_max` and return. -/
def aReturn (val : ℝ → ℝ) (i : Nat) (M : EiMem) : EiMem := { M with ret := fun j => if j = i then some (val M.fmax) else M.ret j }

/-- The atomic actions of thread `i` evaluating `EI` at `v` — ei.hpp:82-115.  The vector of predictions (ei.hpp:97-101) is local to the
thread.  Simplification: memory accesses are sequentially consistent and atomic (in C++ the race is undefined behaviour altogether). -/
noncomputable def eiThread (m : AModel) (afun : List ℝ → ℝ) (jitter : ℝ) (v : List ℝ) (i : Nat) : Option (List (EiMem → EiMem)) :=
  (m.query v).bind fun r =>
    let sigma := √r.2
    if sigma < 1e-10 ∨ m.samples.length < 1 then some [aReturn (fun _ => 0) i]
    else (rewards m afun m.samples).bind fun rs => (maxElement rs).map fun best =>
      [aTest m.samples.length i, aSetNb m.samples.length i, aSetMax best i,
        aReturn (fun fmax => (afun r.1 - fmax - jitter) * capPhi ((afun r.1 - fmax - jitter) / sigma) +
          sigma * phi ((afun r.1 - fmax - jitter) / sigma)) i]

end Acqui

end Limbo
