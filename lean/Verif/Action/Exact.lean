import Mathlib.Analysis.SpecialFunctions.Trigonometric.Deriv
import Mathlib.Analysis.SpecialFunctions.Pow.Real

/-!
# The analytic start of the integration, src/bounce_solution/action_calculation.cpp:232-626

The force is replaced by its linear approximation around the starting point, for which the equation of
motion has an explicit solution. Doubles are real numbers; a start is the list of the radius, the
position and the velocity.
-/

namespace Verif.Action

open scoped BigOperators

/-- The condition of the loop in `BesselI`, action_calculation.cpp:239. A quotient by zero is infinite
and larger than the bound, 0/0 is NaN and not. -/
noncomputable def besselGoOn (r r0 : ℝ) : Prop :=
  if r = 0 then r0 ≠ 0 else 1e-15 < |(r - r0) / r|

open Classical in
/-- The loop of `BesselI`, action_calculation.cpp:232-247; `terms - m` passes remain. `tgamma` of a
natural number is the factorial (`alpha` is 0, 1 or 2 in all calls). -/
noncomputable def besselLoop (alpha : Nat) (x : ℝ) : Nat → Nat → ℝ → ℝ → ℝ
  | 0, _, r, _ => r
  | fuel + 1, m, r, r0 =>
    if besselGoOn r r0 then
      besselLoop alpha x fuel (m + 1)
        (r + 1 / (((m + alpha).factorial : ℝ) * (m.factorial : ℝ)) * (x / 2) ^ (2 * m + alpha)) r
    else r

/-- `BesselI`, action_calculation.cpp:232-247. -/
noncomputable def besselI (terms alpha : Nat) (x : ℝ) : ℝ := besselLoop alpha x terms 0 0 1e100

open Classical in
/-- The loop of `BesselJ`, action_calculation.cpp:249-264. -/
noncomputable def besselJLoop (x : ℝ) : Nat → Nat → ℝ → ℝ → ℝ
  | 0, _, r, _ => r
  | fuel + 1, m, r, r0 =>
    if besselGoOn r r0 then
      besselJLoop x fuel (m + 1)
        (r + 1 / (((m + 1).factorial : ℝ) * (m.factorial : ℝ)) * (-1) ^ m * (x / 2) ^ (2 * m + 1)) r
    else r

/-- `BesselJ`, action_calculation.cpp:249-264. -/
noncomputable def besselJ (terms : Nat) (x : ℝ) : ℝ := besselJLoop x terms 0 0 1e100

/-- What `LinearSolution` of `ExactSolutionFromMinimum` subtracts from `l` for `Alpha == 2`,
action_calculation.cpp:278-280. -/
noncomputable def minSol2 (lmin delta H rho : ℝ) : ℝ :=
  lmin + delta * Real.sinh (√H * rho) / (√H * rho)

/-- `LinearSolutionDerivative` for `Alpha == 2`, action_calculation.cpp:284-287. -/
noncomputable def minSol2' (delta H rho : ℝ) : ℝ :=
  delta * Real.cosh (rho * √H) / rho - delta * Real.sinh (rho * √H) / (rho ^ 2 * √H)

/-- The same for `Alpha == 3`, action_calculation.cpp:296-299; `bI` is `BesselI`. -/
noncomputable def minSol3 (bI : Nat → ℝ → ℝ) (lmin delta H rho : ℝ) : ℝ :=
  lmin + 2 * delta * bI 1 (√H * rho) / (√H * rho)

/-- `LinearSolutionDerivative` for `Alpha == 3`, action_calculation.cpp:303-305. -/
noncomputable def minSol3' (bI : Nat → ℝ → ℝ) (delta H rho : ℝ) : ℝ :=
  2 * delta * bI 2 (rho * √H) / rho

/-- What `LinearSolution` of `ExactSolutionLin` subtracts from `l` for `Alpha == 2` and `d2Vdl2 > 0`,
action_calculation.cpp:378-383. -/
noncomputable def linPos2 (l0 dV H rho : ℝ) : ℝ :=
  l0 - dV / H + 1 * dV * Real.sinh (√|H| * rho) / (|H| ^ (3 / 2 : ℝ) * rho)

/-- Its derivative, action_calculation.cpp:384-389. -/
noncomputable def linPos2' (dV H rho : ℝ) : ℝ :=
  dV * Real.cosh (√H * rho) / (H * rho) - dV * Real.sinh (√H * rho) / (H ^ (3 / 2 : ℝ) * rho ^ 2)

/-- The same for `d2Vdl2 < 0`, action_calculation.cpp:393-398. -/
noncomputable def linNeg2 (l0 dV H rho : ℝ) : ℝ :=
  l0 - dV / H + -1 * dV * Real.sin (√|H| * rho) / (|H| ^ (3 / 2 : ℝ) * rho)

/-- Its derivative, action_calculation.cpp:400-406. -/
noncomputable def linNeg2' (dV H rho : ℝ) : ℝ :=
  -(dV * Real.cos (√|H| * rho) / (|H| * rho))
    + dV * Real.sin (√|H| * rho) / (|H| ^ (3 / 2 : ℝ) * rho ^ 2)

/-- The same for `Alpha == 3` and `d2Vdl2 > 0`, action_calculation.cpp:410-415. -/
noncomputable def linPos3 (bI : Nat → ℝ → ℝ) (l0 dV H rho : ℝ) : ℝ :=
  l0 - dV / H + 2 * dV * bI 1 (√H * rho) / (H ^ (3 / 2 : ℝ) * rho)

/-- Its derivative, action_calculation.cpp:416-423. -/
noncomputable def linPos3' (bI : Nat → ℝ → ℝ) (dV H rho : ℝ) : ℝ :=
  -2 * dV * bI 1 (√H * rho) / (H ^ (3 / 2 : ℝ) * rho ^ 2)
    + dV * (bI 0 (√H * rho) + bI 2 (√H * rho)) / (H * rho)

/-- The same for `Alpha == 3` and `d2Vdl2 < 0`, action_calculation.cpp:427-432. -/
noncomputable def linNeg3 (bJ : ℝ → ℝ) (l0 dV H rho : ℝ) : ℝ :=
  l0 - dV / H - 2 * dV * bJ (√|H| * rho) / (|H| ^ (3 / 2 : ℝ) * rho)

/-- Its numerical derivative, action_calculation.cpp:433-440. -/
noncomputable def linNeg3' (bJ : ℝ → ℝ) (l l0 dV H rho : ℝ) : ℝ :=
  -((l - linNeg3 bJ l0 dV H (rho + 0.001)) - (l - linNeg3 bJ l0 dV H (rho - 0.001))) / 0.002

section Search

variable {K : Type} [Field K] [LinearOrder K]

/-- The binary search, action_calculation.cpp:319-334 and 498-513: `cc` counts down from 150. -/
def bisect (f : K → K) : Nat → K → K → K → K
  | 0, _, _, mid => mid
  | cc + 1, down, up, mid =>
    if 1 / 10 ^ 10 < up - down then
      let m := (up + down) / 2
      if 0 < f m then bisect f cc m up m else bisect f cc down m m
    else mid

/-- The growth of the upper limit, action_calculation.cpp:312-317 (`rho_up < 100`: 99 passes from 1) and
488-496 (`counter < 100`: 100 passes). -/
def growUp (f : K → K) : Nat → K → K
  | 0, up => up
  | n + 1, up => if 0 < f up then growUp f n (up + 1) else up

end Search

/-- The start when no solution is found, action_calculation.cpp:449-451 and 460-462. -/
noncomputable def fallback (l0 dV : ℝ) : ℝ × ℝ × ℝ :=
  (1 / 10 ^ 5, l0 + 1 / 10 ^ 5 * (1 / 10 ^ 5) * dV / 2, 1 / 10 ^ 5 * dV)

/-- The two Bessel functions as called in the program. -/
structure Bessel where
  I : Nat → ℝ → ℝ
  J : ℝ → ℝ

/-- `ExactSolutionFromMinimum`, action_calculation.cpp:266-335. -/
noncomputable def fromMinimum (bes : Bessel) (alpha : Nat) (lmin delta H l : ℝ) : ℝ × ℝ × ℝ :=
  let sol := if alpha = 2 then minSol2 lmin delta H else minSol3 bes.I lmin delta H
  let sol' := if alpha = 2 then minSol2' delta H else minSol3' bes.I delta H
  let f := fun rho => l - sol rho
  let r := bisect f 150 (1 / 10 ^ 100) (growUp f 99 1) 0
  (r, l, sol' r)

open Classical in
/-- `ExactSolutionLin`, action_calculation.cpp:337-514; `none` for the failure of the bounce action.
The recursion of the program is bounded by `fuel`, see `C68_recursion_ends`. -/
noncomputable def exactLin (bes : Bessel) (alpha : Nat) (L l0 dV H : ℝ) :
    Nat → ℝ → Option (Option (ℝ × ℝ × ℝ))
  | 0, _ => none
  | fuel + 1, l =>
    if (alpha = 2 ∨ alpha = 3) ∧ H ≠ 0 then
      let sol : ℝ → ℝ :=
        if 0 < H then (if alpha = 2 then linPos2 l0 dV H else linPos3 bes.I l0 dV H)
        else (if alpha = 2 then linNeg2 l0 dV H else linNeg3 bes.J l0 dV H)
      let sol' : ℝ → ℝ :=
        if 0 < H then (if alpha = 2 then linPos2' dV H else linPos3' bes.I dV H)
        else (if alpha = 2 then linNeg2' dV H else linNeg3' bes.J l l0 dV H)
      let f := fun rho => l - sol rho
      if f (1 / 10 ^ 100) < 0 then some (some (fallback l0 dV))
      else if H < 0 then
        let up := (if alpha = 2 then 4.493409457909 else 5.13562230184068) / √|H|
        if 0 < f up then
          if |(l - l0) / L| < 1 / 10 ^ 10 then some none
          else exactLin bes alpha L l0 dV H fuel (l0 + (l - l0) / 10)
        else
          let r := bisect f 150 (1 / 10 ^ 100) up 0
          some (some (r, l, sol' r))
      else
        let r := bisect f 150 (1 / 10 ^ 100) (growUp f 100 1) 0
        some (some (r, l, sol' r))
    else some (some (fallback l0 dV))

/-- `LogisticFunction`, action_calculation.cpp:529-534. -/
noncomputable def logistic (x : ℝ) : ℝ :=
  if 10 ≤ x then 1 else if x ≤ -10 then 0 else 1 / (1 + Real.exp (-x))

open Classical in
/-- `ExactSolution`, action_calculation.cpp:572-626, with both solutions given (`none`: the attempt
failed); `thr` is `ExactSolutionThreshold`, `delta` the member `l0_minus_lmin`. The result is `none` when
the gradient is negative. -/
noncomputable def exactSolution (thr : Option ℝ) (dV delta L lmin : ℝ) (minSol : ℝ × ℝ × ℝ)
    (linSol : Option (ℝ × ℝ × ℝ)) : Option (ℝ × ℝ × ℝ) :=
  match thr with
  | none => linSol
  | some t =>
    if dV ≤ 0 then (if delta / L < 1 / 100 then some minSol else none)
    else
      let e := 100 * (delta - t) / (t - lmin)
      linSol.bind fun lin =>
        if logistic (-e) = 1 then some minSol
        else if logistic e = 1 then some lin
        else some (minSol.1 * logistic (-e) + lin.1 * logistic e, lin.2.1,
          minSol.2.2 * logistic (-e) + lin.2.2 * logistic e)

end Verif.Action
