import Mathlib.Algebra.Order.Floor.Defs
import Verif.Thermal.Model
import Verif.Thermal.Table
import Verif.Spline.Model

/-!
# The bosonic thermal function for negative squared masses

The spline through the table, src/ThermalFunctions/ThermalFunctions.cpp:341-348, which the function
`bosonNegative` of the model of the thermal functions takes as a parameter, and the linear
interpolation of the version 1 of the program, src/models/ClassPotentialOrigin_deprecated.cpp:221-314.
-/

namespace Verif.Thermal.Negative

open Outcome

/-- The constructor of `spline` with points, spline.h:85-105, with `make_monotonic == false`. -/
def construct {K : Type} [Field K] [LinearOrder K] (n : Nat) (x y : Nat → K)
    (type : Spline.SplineType) (left : Spline.Bd) (leftValue : K) (right : Spline.Bd)
    (rightValue : K) : Spline.Spl K :=
  Spline.setPoints (Spline.setBoundary (Spline.fresh K) left leftValue right rightValue) n x y type

/-- `JbosonNegativeSpline`, ThermalFunctions.cpp:341-348. -/
noncomputable def spl : Spline.Spl ℝ :=
  construct Table.abscissae.length (fun i => (Table.abscissae.getD i 0 : ℝ))
    (fun i => (Table.ordinates.getD i 0 : ℝ) / 10 ^ 6)
    .cspline .first (-Real.pi ^ 2 / 12) .first (3816357189 / 10 ^ 9)

/-- The two functions of the spline that are used, ThermalFunctions.cpp:357, 361. -/
noncomputable def spline : Thermal.Spline :=
  { value := fun t => Spline.eval spl t, deriv1 := fun t => Spline.deriv spl 1 t }

/-- An element of `NegLinearInt`, an array of 3001 pairs, NegativeBosonSpline.cpp:16: reading behind the
end is undefined. -/
noncomputable def pair (i : Nat) : Outcome (ℝ × ℝ) := do
  let a ← idx Table.pairAbscissae i
  let w ← idx Table.pairOrdinates i
  .ok ((a : ℝ), (w : ℝ) / 10 ^ 10)

/-- `C_NegLine`, NegativeBosonSpline.cpp:14. -/
def negLine : Nat := 3001

/-- The interpolated value of `boson_legacy` with `diff == 0` for a negative squared mass,
ClassPotentialOrigin_deprecated.cpp:237-257, as a function of `x = m²/T²`. -/
noncomputable def legacyInterpolated (x : ℝ) : Outcome ℝ :=
  if ((negLine : ℝ) - 2) ≤ -x then do
    let p ← pair (negLine - 2)
    let q ← pair (negLine - 1)
    .ok ((q.2 - p.2) / (q.1 - p.1) * (x - p.1) + p.2)
  else do
    let p ← pair ⌊-x⌋₊
    let q ← pair (⌊-x⌋₊ + 1)
    .ok ((q.2 - p.2) / (q.1 - p.1) * (x - p.1) + p.2)

/-- `boson_legacy` with `diff == 0` for a negative squared mass and `Temp != 0`,
ClassPotentialOrigin_deprecated.cpp:228-260, 312-313. `cw` is `CWTerm` at the absolute value. -/
noncomputable def legacyNegative (cw : ℝ → ℝ) (m2 temp : ℝ) : Outcome ℝ := do
  let v ← legacyInterpolated (m2 / (temp * temp))
  .ok ((v + bosonShift) * (temp ^ 4 / (2 * Real.pi * Real.pi)) + cw |m2|)

end Verif.Thermal.Negative
