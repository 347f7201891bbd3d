import Mathlib.Analysis.SpecialFunctions.Pow.Real
import Mathlib.Analysis.SpecialFunctions.Trigonometric.Basic

/-!
The functions of the regression benchmark, `src/benchmarks/regression/test_functions.hpp`, and how `waf_tools/benchmark_template.cpp` draws points for
them and chooses the noise.

Simplifications: exact reals; `M_PI` is `π`.  A coefficient of the vector that does not exist makes the call fail (`none`; Eigen asserts, and reads
outside the vector without assertions).  `GramacyLee`, `Step`, `Schwefel`, `SixHumpCamel` and `OTLCircuit`
are in `Verif/Model/RegFns2.lean`.
-/

namespace Limbo.Reg

open Real

/-- A function with its `bounds()` (the pairs lower, upper) and `dims()` (`-1`: any). -/
structure RegFn where
  /-- `operator()`. -/
  f : List ℝ → Option ℝ
  bounds : List (ℝ × ℝ)
  dims : Int

/-- `x.squaredNorm()`. -/
noncomputable def squaredNorm (x : List ℝ) : ℝ := (x.map fun a => a * a).sum

/-- `x.norm()`. -/
noncomputable def norm (x : List ℝ) : ℝ := sqrt (squaredNorm x)

/-- `Rastrigin` — test_functions.hpp:50-72. -/
noncomputable def rastrigin : RegFn where
  f x := some (x.foldl (fun f a => f + (a * a - 10 * cos (2 * π * a))) (10 * x.length))
  bounds := [(-5.12, 5.12)]
  dims := -1

/-- `Ackley` — test_functions.hpp:75-104; for the empty vector the code divides zero by zero, which is a failure here. -/
noncomputable def ackley : RegFn where
  f x :=
    if x = [] then none
    else
      let AB := x.foldl (fun (p : ℝ × ℝ) a => (p.1 + a * a, p.2 + cos (2 * π * a))) (0, 0)
      let A := -0.2 * sqrt (AB.1 / x.length)
      let B := AB.2 / x.length
      some (-20 * exp A - exp B + 20 + exp 1)
  bounds := [(-32.768, 32.768)]
  dims := -1

/-- `Bukin` — test_functions.hpp:107-128. -/
noncomputable def bukin : RegFn where
  f x := match x with
    | x0 :: x1 :: _ => some (100 * sqrt |x1 - 0.01 * x0 * x0| + 0.01 * |x0 + 10|)
    | _ => none
  bounds := [(-15, 5), (-3, 3)]
  dims := 2

/-- `CrossInTray` — test_functions.hpp:131-153. -/
noncomputable def crossInTray : RegFn where
  f x := match x with
    | x0 :: x1 :: _ =>
      let A := sin x0 * sin x1
      let B := |100 - norm x / π|
      some (-0.0001 * (|A * exp B| + 1) ^ (0.1 : ℝ))
    | _ => none
  bounds := [(-10, 10)]
  dims := 2

/-- `DropWave` — test_functions.hpp:156-175. -/
noncomputable def dropWave : RegFn where
  f x := some (-(1 + cos (12 * norm x)) / (0.5 * squaredNorm x + 2))
  bounds := [(-5.12, 5.12)]
  dims := 2

/-- `HolderTable` — test_functions.hpp:225-247. -/
noncomputable def holderTable : RegFn where
  f x := match x with
    | x0 :: x1 :: _ =>
      let A := sin x0 * cos x1
      let B := |1 - norm x / π|
      some (-|A * exp B|)
    | _ => none
  bounds := [(-10, 10)]
  dims := 2

/-- The loop of `Levy`, over all the `w(i)` but the last — test_functions.hpp:257-260. -/
noncomputable def levyB (w : List ℝ) : ℝ :=
  w.dropLast.foldl (fun B a => B + (a - 1) * (a - 1) * (1 + 10 * sin (π * a + 1) * sin (π * a + 1))) 0

/-- `Levy` — test_functions.hpp:250-280. -/
noncomputable def levy : RegFn where
  f x :=
    let w := x.map fun a => 1 + (a - 1) / 4
    match w.head?, w.getLast? with
    | some w0, some wl =>
      let A := sin (π * w0) * sin (π * w0)
      let C := (wl - 1) * (wl - 1) * (1 + sin (2 * π * wl) * sin (2 * π * wl))
      some (A + levyB w + C)
    | _, _ => none
  bounds := [(-10, 10)]
  dims := -1

/-- the four rows of `a` of `Hartmann6` — test_functions.hpp:348-349 -/
noncomputable def hartA : List (List ℝ) :=
  [[10, 3, 17, 3.5, 1.7, 8], [0.05, 10, 17, 0.1, 8, 14], [3, 3.5, 1.7, 10, 17, 8], [17, 8, 0.05, 10, 0.1, 14]]

/-- the four rows of `p` of `Hartmann6` — test_functions.hpp:350-352 -/
noncomputable def hartP : List (List ℝ) :=
  [[0.1312, 0.1696, 0.5569, 0.0124, 0.8283, 0.5886], [0.2329, 0.4135, 0.8307, 0.3736, 0.1004, 0.9991],
    [0.2348, 0.1451, 0.3522, 0.2883, 0.3047, 0.665], [0.4047, 0.8828, 0.8732, 0.5743, 0.1091, 0.0381]]

/-- `Hartmann6` — test_functions.hpp:343-382 (`alpha`: lines 354-355; the loops: lines 357-364). -/
noncomputable def hartmann6 : RegFn where
  f x :=
    if x.length < 6 then none
    else
      let s (a p : List ℝ) : ℝ := (List.zipWith (fun (ap : ℝ × ℝ) xj => ap.1 * (xj - ap.2) * (xj - ap.2)) (a.zip p) x).foldl (· + ·) 0
      some ((([1, 1.2, 3, 3.2] : List ℝ).zip (hartA.zip hartP)).foldl (fun res r => res + r.1 * exp (-s r.2.1 r.2.2)) 0)
  bounds := [(0, 1)]
  dims := 6

/-- `RobotArm` — test_functions.hpp:385-422; `x.tail(4)` are the last four coefficients, the last ones of a vector of the right size. -/
noncomputable def robotArm : RegFn where
  f x := match x with
    | [q0, q1, q2, q3, l0, l1, l2, l3] =>
      let uv := [(l0, q0), (l1, q0 + q1), (l2, q0 + q1 + q2), (l3, q0 + q1 + q2 + q3)].foldl
        (fun (p : ℝ × ℝ) lq => (p.1 + lq.1 * cos lq.2, p.2 + lq.1 * sin lq.2)) (0, 0)
      some (sqrt (uv.2 * uv.2 + uv.1 * uv.1))
    | _ => none
  bounds := [(0, 2 * π), (0, 2 * π), (0, 2 * π), (0, 2 * π), (0, 1), (0, 1), (0, 1), (0, 1)]
  dims := 8

/-- `PistonSimulation` — test_functions.hpp:470-513. -/
noncomputable def piston : RegFn where
  f x := match x with
    | M :: S :: V0 :: k :: P0 :: Ta :: T0 :: _ =>
      let A := P0 * S + 19.62 * M - k * V0 / S
      let V := S * (sqrt (A * A + 4 * k * P0 * V0 * Ta / T0) - A) / (2 * k)
      some (2 * π * sqrt (M / (k + S * S * P0 * V0 * Ta / (T0 * V * V))))
    | _ => none
  bounds := [(30, 60), (0.005, 0.020), (0.002, 0.010), (1000, 5000), (90000, 110000), (290, 296), (340, 360)]
  dims := 7

/-- the constants of the two arms — test_functions.hpp:524-532, 588-596 -/
noncomputable def armA : ℝ :=
  let m1 := 0.5; let l1 := 0.5; let r1 := l1 / 2; let m2 := 0.5; let l2 := 0.5; let r2 := l2 / 2
  let I1 := m1 * l1 * l1 / 12; let I2 := m2 * l2 * l2 / 12
  I1 + I2 + m1 * r1 * r1 + m2 * (l1 * l1 + r2 * r2)

/-- test_functions.hpp:533, 597 -/
noncomputable def armB : ℝ := let l1 := 0.5; let m2 := 0.5; let l2 := 0.5; let r2 := l2 / 2; m2 * l1 * r2

/-- test_functions.hpp:534, 598 -/
noncomputable def armDelta : ℝ := let m2 := 0.5; let l2 := 0.5; let r2 := l2 / 2; let I2 := m2 * l2 * l2 / 12; I2 + m2 * r2 * r2

/-- `tau = M ddq + C dq` — test_functions.hpp:536-547, 600-611. -/
noncomputable def armTau (ddq0 ddq1 dq0 dq1 q1 : ℝ) : ℝ × ℝ :=
  let m00 := armA + 2 * armB * cos q1
  let m01 := armDelta + armB * cos q1
  let m10 := armDelta + armB * cos q1
  let m11 := armDelta
  let c00 := -armB * sin q1 * dq1
  let c01 := -armB * sin q1 * (dq0 + dq1)
  let c10 := armB * sin q1 * dq0
  let c11 := 0
  ((m00 * ddq0 + m01 * ddq1) + (c00 * dq0 + c01 * dq1), (m10 * ddq0 + m11 * ddq1) + (c10 * dq0 + c11 * dq1))

/-- `PlanarInverseDynamicsI` — test_functions.hpp:516-577. -/
noncomputable def planarI : RegFn where
  f x := match x with
    | ddq0 :: ddq1 :: dq0 :: dq1 :: _ :: q1 :: _ => some (armTau ddq0 ddq1 dq0 dq1 q1).1
    | _ => none
  bounds := List.replicate 4 (-2 * π, 2 * π) ++ List.replicate 2 (-π, π)
  dims := 6

/-- `PlanarInverseDynamicsII` — test_functions.hpp:580-641. -/
noncomputable def planarII : RegFn where
  f x := match x with
    | ddq0 :: ddq1 :: dq0 :: dq1 :: _ :: q1 :: _ => some (armTau ddq0 ddq1 dq0 dq1 q1).2
    | _ => none
  bounds := List.replicate 4 (-2 * π, 2 * π) ++ List.replicate 2 (-π, π)
  dims := 6

/-- A point of the benchmark from a draw `u` of `random_vector` — benchmark_template.cpp:75-76, 97-104 (and 155-162). -/
noncomputable def scale (b : List (ℝ × ℝ)) (u : List ℝ) : Option (List ℝ) :=
  match b with
  | [p] => some (u.map fun a => a * (p.2 - p.1) + p.1)
  | _ => if u.length ≤ b.length then some (List.zipWith (fun a p => a * (p.2 - p.1) + p.1) u b) else none

/-- `sample_covariance` of one-dimensional points — benchmark_template.cpp:28-51.  No points: the assertion; one point: the code divides zero by
zero.  Both are failures here. -/
noncomputable def sampleCov (pts : List ℝ) : Option ℝ :=
  if pts.length < 2 then none
  else
    let mean := pts.foldl (fun (c p : ℝ) => c + p) 0 / pts.length
    let cov := pts.foldl (fun (c p : ℝ) => c + p * p) 0
    some ((cov - pts.length * mean * mean) / (pts.length - 1))

/-- The standard deviation of the noise — benchmark_template.cpp:113-114. -/
noncomputable def noiseDev (pts : List ℝ) : Option ℝ := (sampleCov pts).map fun c => sqrt c / 20

end Limbo.Reg
