import Mathlib.Analysis.SpecialFunctions.Log.Basic
import Mathlib.Analysis.SpecialFunctions.Pow.Real
import Mathlib.Analysis.SpecialFunctions.Trigonometric.Basic

/-!
The test functions of the optimisation benchmark, `src/benchmarks/limbo/testfunctions.hpp` (the branch without `BAYES_OPT`), and the
accuracy that `bench.cpp` writes to its result files.

Simplifications: exact reals; `M_PI` is `π`; a vector of the function's dimension is a function on `Fin n` (Eigen asserts on any other size).
`Hartmann3` and `Hartmann6` are not modelled.
-/

namespace Limbo.Bench

open Real

/-- A test function with `dim_in()` equal to `n`, with the rows of its `solutions()`: the first one and the others. -/
structure TestFn (n : ℕ) where
  /-- `operator()`. -/
  f : (Fin n → ℝ) → ℝ
  /-- `solutions().row(0)`. -/
  sol : Fin n → ℝ
  /-- `solutions().row(i)` for `i ≥ 1`. -/
  sols : List (Fin n → ℝ)

/-- `sign` (`testfunctions.hpp:67-74`). -/
noncomputable def sign (x : ℝ) : ℝ := if x < 0 then -1 else if 0 < x then 1 else 0

/-- `sqr` (`testfunctions.hpp:76-79`). -/
def sqr (x : ℝ) : ℝ := x * x

/-- `hat` (`testfunctions.hpp:81-86`). -/
noncomputable def hat (x : ℝ) : ℝ := if x ≠ 0 then log |x| else 0

/-- `c1` (`testfunctions.hpp:88-93`). -/
noncomputable def c1 (x : ℝ) : ℝ := if 0 < x then 10 else 5.5

/-- `c2` (`testfunctions.hpp:95-100`). -/
noncomputable def c2 (x : ℝ) : ℝ := if 0 < x then 7.9 else 3.1

/-- One coordinate of `t_osz` (`testfunctions.hpp:102-108`). -/
noncomputable def tOsz (x : ℝ) : ℝ :=
  sign x * exp (hat x + 0.049 * sin (c1 x * hat x) + sin (c2 x * hat x))

/-- `Sphere` (`testfunctions.hpp:110-132`). -/
noncomputable def sphere : TestFn 2 where
  f x := sqr (x 0 - 0.5) + sqr (x 1 - 0.5)
  sol := ![0.5, 0.5]
  sols := []

/-- `Ellipsoid` (`testfunctions.hpp:134-155`); the loop over the two dimensions is a sum. -/
noncomputable def ellipsoid : TestFn 2 where
  f x := ∑ i : Fin 2, ((10 : ℝ) ^ (((i : ℕ) : ℝ) / ((2 : ℝ) - 1)) * tOsz (x i - 0.5) * tOsz (x i - 0.5) + 1)
  sol := ![0.5, 0.5]
  sols := []

/-- `Rastrigin` (`testfunctions.hpp:157-183`); the loop over the four dimensions is a sum. -/
noncomputable def rastrigin : TestFn 4 where
  f xx := 10 * 4 + ∑ i : Fin 4, ((2 * xx i - 1) * (2 * xx i - 1) - 10 * cos (2 * π * (2 * xx i - 1)))
  sol := fun _ => (0 + 1) / 2
  sols := []

/-- `GoldsteinPrice` (`testfunctions.hpp:266-296`). -/
noncomputable def goldsteinPrice : TestFn 2 where
  f xx :=
    let x0 := 4 * xx 0 - 2
    let x1 := 4 * xx 1 - 2
    let fact1a := sqr (x0 + x1 + 1)
    let fact1b := 19 - 14 * x0 + 3 * sqr x0 - 14 * x1 + 6 * x0 * x1 + 3 * sqr x1
    let fact1 := 1 + fact1a * fact1b
    let fact2a := sqr (2 * x0 - 3 * x1)
    let fact2b := 18 - 32 * x0 + 12 * sqr x0 + 48 * x1 - 36 * x0 * x1 + 27 * sqr x1
    let fact2 := 30 + fact2a * fact2b
    (log (fact1 * fact2) - 8.693) / 2.427
  sol := ![0.5, 0.25]
  sols := []

/-- `BraninNormalized` (`testfunctions.hpp:298-328`). -/
noncomputable def branin : TestFn 2 where
  f x :=
    let x1 := x 0 * 15 - 5
    let x2 := x 1 * 15
    let term1 := sqr (x2 - (5.1 * sqr x1 / (4 * sqr π)) + 5 * x1 / π - 6)
    let term2 := (10 - 10 / (8 * π)) * cos x1
    (term1 + term2 - 44.81) / 51.95
  sol := ![(-π + 5) / 15, 12.275 / 15]
  sols := [![(π + 5) / 15, 2.275 / 15], ![(9.42478 + 5) / 15, 2.475 / 15]]

/-- `SixHumpCamel` (`testfunctions.hpp:330-359`). -/
noncomputable def sixHumpCamel : TestFn 2 where
  f x :=
    let x1 := -3 + 6 * x 0
    let x2 := -2 + 4 * x 1
    let x1_2 := sqr x1
    let x2_2 := sqr x2
    let tmp1 := (4 - 2.1 * x1_2 + sqr x1_2 / 3) * x1_2
    let tmp2 := x1 * x2
    let tmp3 := (-4 + 4 * x2_2) * x2_2
    tmp1 + tmp2 + tmp3
  sol := ![(0.0898 + 3) / 6, (-0.7126 + 2) / 4]
  sols := [![(-0.0898 + 3) / 6, (0.7126 + 2) / 4]]

/-- `Benchmark::operator()` (`testfunctions.hpp:361-372`): what the optimiser maximises. -/
noncomputable def TestFn.eval {n : ℕ} (F : TestFn n) (x : Fin n → ℝ) : ℝ := -F.f x

/-- `Benchmark::accuracy` (`testfunctions.hpp:390-415`): `v` is the best observation. -/
noncomputable def TestFn.accuracy {n : ℕ} (F : TestFn n) (v : ℝ) : ℝ :=
  F.sols.foldl (fun minDiff s => let diff := |v + F.f s|; if diff < minDiff then diff else minDiff) |v + F.f F.sol|

end Limbo.Bench
