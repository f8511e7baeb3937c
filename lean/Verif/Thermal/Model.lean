import Mathlib.Analysis.SpecialFunctions.Pow.Real
import Mathlib.Analysis.SpecialFunctions.Gamma.Basic
import Mathlib.Analysis.SpecialFunctions.Complex.Log
import Mathlib.Data.Nat.Factorial.DoubleFactorial
import Verif.Outcome
import Verif.Flt

/-!
# Thermal functions

src/ThermalFunctions/ThermalFunctions.cpp and thermalcoefficientcalculator.cpp.  Doubles are real
numbers; `gsl_sf_doublefact`, `gsl_sf_fact` and `gsl_sf_gamma` are the mathematical functions, the zeta
function (`gsl_sf_zeta`) and the spline for negative arguments are parameters.  The numerical
integration itself is not modelled, its integrands are.
-/

namespace Verif.Thermal

open Outcome

/-- `std::map<int, double>::at`. -/
def mapAt {α : Type} (m : List (Int × α)) (n : Int) : Outcome α :=
  match m.find? fun p => p.1 == n with
  | some p => .ok p.2
  | none => .err .outOfRange

/-- The constructor of `ThermalCoefficientCalculator`, thermalcoefficientcalculator.cpp:18-28. -/
def precalculated {α : Type} (func : Int → α) (maxOrder : Int) : List (Int × α) :=
  (List.range (maxOrder + 1).toNat).map fun i : Nat => ((i : Int), func i)

/-- `GetCoefficentAtOrder`, thermalcoefficientcalculator.cpp:30-40. -/
def getCoefficient {α : Type} (func : Int → α) (maxOrder : Int) (n : Int) : Outcome α :=
  if n ≤ maxOrder then mapAt (precalculated func maxOrder) n else .ok (func n)

/-- The function given to `FermionInterpolatedLowCoefficientCalculator`,
ThermalFunctions.cpp:34-47, for orders that are not negative. -/
noncomputable def fermionLowCoeff (zeta : Nat → ℝ) (l : Nat) : ℝ :=
  if l < 2 then 0
  else ((2 * l - 3).doubleFactorial : ℝ) * zeta (2 * l - 1) /
    (((2 * l).doubleFactorial : ℝ) * (l + 1)) * (2 ^ (2 * l - 1) - 1)

/-- The function given to `BosonInterpolatedLowCoefficientCalculator`, ThermalFunctions.cpp:50-62. -/
noncomputable def bosonLowCoeff (zeta : Nat → ℝ) (l : Nat) : ℝ :=
  if l < 2 then 0
  else ((2 * l - 3).doubleFactorial : ℝ) * zeta (2 * l - 1) /
    (((2 * l).doubleFactorial : ℝ) * (l + 1))

/-- The function given to `JInterpolatedHighCoefficientCalculator`, ThermalFunctions.cpp:65-72. -/
noncomputable def highCoeff (l : Nat) : ℝ :=
  1 / (2 ^ l * (l.factorial : ℝ)) * Real.Gamma (5 / 2 + l) / Real.Gamma (5 / 2 - l)

/-- `C_euler_gamma`, ThermalFunctions.h:45. -/
noncomputable def eulerGamma : ℝ := 5772156649015328606065 / 10 ^ 22

/-- `JfermionInterpolatedLow`, ThermalFunctions.cpp:180-225.  The loops `for (l = 2; l <= n; l++)` are
sums over the orders 2 … n; by `C63_coefficient` the stored coefficients are the calculated ones. -/
noncomputable def fermionLow (zeta : Nat → ℝ) (x : ℝ) (n : Nat) (diff : Int) : ℝ :=
  let cf := 3 / 2 + 2 * Real.log (4 * Real.pi) - 2 * eulerGamma - 2 * Real.log 4
  if x = 0 ∧ diff = 0 then -7 * Real.pi ^ 4 / 360
  else if x = 0 ∧ diff = 1 then Real.pi ^ 2 / 24
  else if diff = 0 then
    -7 * Real.pi ^ 4 / 360 + Real.pi ^ 2 / 24 * x + 1 / 32 * x ^ 2 * (Real.log x - cf)
      + -Real.pi ^ 2 * x *
        ∑ l ∈ Finset.Icc 2 n, (-x / (4 * Real.pi ^ 2)) ^ l * fermionLowCoeff zeta l
  else if diff = 1 then
    Real.pi ^ 2 / 24 + x * (-6 * cf + 3) / 96 + x * Real.log x / 16
      + ∑ l ∈ Finset.Icc 2 n,
        -fermionLowCoeff zeta l * (-x / 4) ^ l * (l + 1) * Real.pi ^ (2 - 2 * (l : ℤ))
  else 0

/-- `JbosonInterpolatedLow`, ThermalFunctions.cpp:227-273. -/
noncomputable def bosonLow (zeta : Nat → ℝ) (x : ℝ) (n : Nat) (diff : Int) : ℝ :=
  let cb := 3 / 2 + 2 * Real.log (4 * Real.pi) - 2 * eulerGamma
  if x = 0 ∧ diff = 0 then -Real.pi ^ 4 / 45
  else if x = 0 ∧ diff = 1 then Real.pi ^ 2 / 12
  else if diff = 0 then
    -Real.pi ^ 4 / 45 + Real.pi ^ 2 * x / 12 + -Real.pi * x ^ (3 / 2 : ℝ) / 6
      + -x ^ 2 * (Real.log x - cb) / 32
      + Real.pi ^ 2 * x *
        ∑ l ∈ Finset.Icc 2 n, (-x / (4 * Real.pi ^ 2)) ^ l * bosonLowCoeff zeta l
  else if diff = 1 then
    Real.pi ^ 2 / 12 + x * (6 * cb - 3) / 96 + -x * Real.log x / 16 + -Real.pi * √x / 4
      + ∑ l ∈ Finset.Icc 2 n,
        bosonLowCoeff zeta l * (-x / 4) ^ l * (l + 1) * Real.pi ^ (2 - 2 * (l : ℤ))
  else 0

/-- `JInterpolatedHigh`, ThermalFunctions.cpp:275-305.  `pow(x, -l / 2.0)` has a real exponent; in
`pow(x, (1 - l) / 2)` the exponent is an integer division, which truncates towards zero. -/
noncomputable def high (x : ℝ) (n : Nat) (diff : Int) : ℝ :=
  if diff = 0 then
    -Real.exp (-√x) * √(Real.pi / 2 * x ^ (3 / 2 : ℝ)) *
      ∑ l ∈ Finset.range (n + 1), highCoeff l * x ^ (-(l : ℝ) / 2)
  else if diff = 1 then
    Real.exp (-√x) * √(2 * Real.pi) / (8 * x ^ (3 / 4 : ℝ)) *
      ∑ l ∈ Finset.range (n + 1),
        highCoeff l * x ^ ((1 - (l : Int)).tdiv 2) * (2 * l + 2 * √x - 3)
  else 0

/-- `C_FermionTheta`, `C_FermionShift`, `C_BosonTheta`, `C_BosonShift`, ThermalFunctions.h:24-40. -/
noncomputable def fermionTheta : ℝ := 2216079120 / 10 ^ 9
noncomputable def fermionShift : ℝ := -1560316619 / 10 ^ 11
noncomputable def bosonTheta : ℝ := 9469230596 / 10 ^ 9
noncomputable def bosonShift : ℝ := 63108787 / 10 ^ 10

/-- `JfermionInterpolated`, ThermalFunctions.cpp:307-320, for numbers. -/
noncomputable def fermionInterpolated (zeta : Nat → ℝ) (x : ℝ) (diff : Int) : ℝ :=
  if fermionTheta ≤ x then -high x 3 diff
  else -fermionLow zeta x 4 diff + (if diff = 0 then -fermionShift else 0)

/-- The spline through the tabulated values: its value and its first derivative. -/
structure Spline where
  value : ℝ → ℝ
  deriv1 : ℝ → ℝ

/-- `JbosonInterpolatedNegative`, ThermalFunctions.cpp:350-365. -/
noncomputable def bosonNegative (s : Spline) (x : ℝ) (diff : Int) : ℝ :=
  if 0 ≤ x then 0
  else if diff = 0 then s.value (-x) + 3533375127 / 10 ^ 15
  else if diff = 1 then -s.deriv1 (-x)
  else 0

/-- `JbosonInterpolated`, ThermalFunctions.cpp:322-339, for numbers. -/
noncomputable def bosonInterpolated (zeta : Nat → ℝ) (s : Spline) (x : ℝ) (diff : Int) : ℝ :=
  if bosonTheta ≤ x then high x 3 diff - (if diff = 0 then bosonShift else 0)
  else if 0 ≤ x then bosonLow zeta x 3 diff
  else if x < 0 then bosonNegative s x diff
  else 0

/-- The same function on a double that may be NaN: every comparison fails and the initial value
`res = 0` is returned. -/
noncomputable def bosonInterpolatedFlt (zeta : Nat → ℝ) (s : Spline) : Flt ℝ → Int → Flt ℝ
  | .nan, _ => .fin 0
  | .fin x, diff => .fin (bosonInterpolated zeta s x diff)

/-- `JfermionInterpolated` on a double that may be NaN: the comparison fails, the low expansion
propagates the NaN in the two derivative modes (`res = 0` in any other). -/
noncomputable def fermionInterpolatedFlt (zeta : Nat → ℝ) : Flt ℝ → Int → Flt ℝ
  | .nan, diff => if diff = 0 ∨ diff = 1 then .nan else .fin (-0)
  | .fin x, diff => .fin (fermionInterpolated zeta x diff)

/-- `std::sqrt` of the complex number `r + 0 i`. -/
noncomputable def csqrt (r : ℝ) : ℂ := if 0 ≤ r then (√r : ℂ) else Complex.I * (√(-r) : ℂ)

/-- `JbosonIntegrand`, ThermalFunctions.cpp:74-98. -/
noncomputable def bosonIntegrand (x k : ℝ) (diff : Int) : ℝ :=
  let t := csqrt (k * k + x)
  if diff = 0 then ((k : ℂ) * k * Complex.log (1 - Complex.exp (-t))).re
  else if diff = 1 then
    ((k : ℂ) * k * Complex.exp (-t) / (2 * t * (1 - Complex.exp (-t)))).re
  else 0

/-- `JfermionIntegrand`, ThermalFunctions.cpp:100-124. -/
noncomputable def fermionIntegrand (x k : ℝ) (diff : Int) : ℝ :=
  let t := csqrt (k * k + x)
  if diff = 0 then ((k : ℂ) * k * Complex.log (1 + Complex.exp (-t))).re
  else if diff = 1 then
    (-(k : ℂ) * k * Complex.exp (-t) / (2 * t * (1 + Complex.exp (-t)))).re
  else 0

end Verif.Thermal
