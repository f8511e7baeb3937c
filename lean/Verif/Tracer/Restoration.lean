import Verif.Tracer.Geometry
import Mathlib.Analysis.SpecialFunctions.Log.Basic

/-!
# The search for a temperature that is high enough

The first part of `IsThereEWSymmetryRestoration`.  `ev T` is the smallest eigenvalue of the numerical Hesse matrix of the
rescaled potential at the origin, at the temperature `T`.
-/

namespace Verif.Tracer

/-- `abs(a / b - 1) < treshold`, minimum_tracer.cpp:1214-1216 with the threshold of line 1181; a quotient by zero is infinite or
NaN and the test fails. -/
def near {K : Type} [Field K] [LinearOrder K] (a b : K) : Prop := b ≠ 0 ∧ |a / b - 1| < 1 / 10 ^ 6

open Classical in
/-- The loop, minimum_tracer.cpp:1197-1231: `x` is `exponentT`, `old` and `older` are `OldSmallestEigenvalue` and
`EvenOlderSmallestEigenvalue`.  The temperature and the eigenvalue at which the loop breaks, `some none` when it does not, and
`none` when there is no end within `fuel` passes. -/
noncomputable def settle (ev : ℝ → ℝ) (tmax : ℝ) : Nat → ℝ → ℝ → ℝ → Option (Option (ℝ × ℝ))
  | 0, _, _, _ => none
  | fuel + 1, x, old, older =>
    if x ≤ Real.log tmax then
      let a := ev (Real.exp x)
      if near a old ∧ near a older then some (some (Real.exp x, a))
      else settle ev tmax fuel (x + Real.log tmax / (20 * Real.log tmax)) a old
    else some none

/-- `IsThereEWSymmetryRestoration`, minimum_tracer.cpp:1174-1270, with the starting values of lines 1178-1182; `stationary T` is
the solution of the linear system at that temperature, see `ewsrOutcome`. -/
noncomputable def restoration {P : Type} (ev : ℝ → ℝ) (stationary : ℝ → Option P) (ewvev : P → ℝ) (fuel : Nat) : Option Int :=
  match settle ev (10 ^ 10) fuel 0 (10 ^ 100) (10 ^ 200) with
  | none => none
  | some none => some (ewsrOutcome false (0 : ℝ) none ewvev)
  | some (some r) => some (ewsrOutcome true r.2 (stationary r.1) ewvev)

end Verif.Tracer
