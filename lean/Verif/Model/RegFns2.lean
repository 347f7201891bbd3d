import Verif.Model.RegFns

/-!
The other functions of the regression benchmark, `src/benchmarks/regression/test_functions.hpp`; see `Verif/Model/RegFns.lean` for the simplifications.
-/

namespace Limbo.Reg

open Real

/-- `GramacyLee` — test_functions.hpp:178-197; at 0 the code divides by zero, which is a failure here. -/
noncomputable def gramacyLee : RegFn where
  f x := match x with
    | a :: _ => if a = 0 then none else some (sin (10 * π * a) / (2 * a) + (a - 1) ^ 4)
    | [] => none
  bounds := [(0.5, 2.5)]
  dims := 1

open Classical in
/-- `Step` — test_functions.hpp:200-222. -/
noncomputable def step : RegFn where
  f x := match x with
    | a :: _ => some (if a ≤ 0 then 0 else 1)
    | [] => none
  bounds := [(-2, 2)]
  dims := 1

/-- `Schwefel` — test_functions.hpp:283-308. -/
noncomputable def schwefel : RegFn where
  f x :=
    let A := 418.9829 * (x.length : ℝ)
    let B := x.foldl (fun B a => B + a * sin (sqrt |a|)) 0
    some (A - B)
  bounds := [(-500, 500)]
  dims := -1

/-- `SixHumpCamel` — test_functions.hpp:311-340. -/
noncomputable def sixHumpCamel : RegFn where
  f x := match x with
    | x1 :: x2 :: _ =>
      let q1 := x1 * x1
      let q2 := x2 * x2
      let t1 := (4 - 2.1 * q1 + (q1 * q1) / 3) * q1
      let t2 := x1 * x2
      let t3 := (-4 + 4 * q2) * q2
      some (t1 + t2 + t3)
    | _ => none
  bounds := [(-3, 3), (-2, 2)]
  dims := 2

/-- `OTLCircuit` — test_functions.hpp:425-467; a zero denominator is a failure here. -/
noncomputable def otlCircuit : RegFn where
  f x := match x with
    | Rb1 :: Rb2 :: Rf :: Rc1 :: Rc2 :: beta :: _ =>
      if Rb1 + Rb2 = 0 ∨ beta * (Rc2 + 9) + Rf = 0 ∨ Rc1 = 0 then none
      else
        let Vb1 := 12 * Rb2 / (Rb1 + Rb2)
        let term1 := (Vb1 + 0.74) * beta * (Rc2 + 9) / (beta * (Rc2 + 9) + Rf)
        let term2 := 11.35 * Rf / (beta * (Rc2 + 9) + Rf)
        let term3 := 0.74 * Rf * beta * (Rc2 + 9) / ((beta * (Rc2 + 9) + Rf) * Rc1)
        some (term1 + term2 + term3)
    | _ => none
  bounds := [(50, 150), (25, 70), (0.5, 3), (1.2, 2.5), (0.25, 1.2), (50, 300)]
  dims := 6

end Limbo.Reg
