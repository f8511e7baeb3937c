import Verif.Outcome
import Verif.Flt
import Mathlib.Analysis.SpecialFunctions.Pow.Real
import Mathlib.Analysis.SpecialFunctions.Sqrt
import Mathlib.Analysis.Real.Pi.Bounds

/-!
# Tunnelling target, tunnelling rate, Hubble rate and inverse time scale

Real numbers without rounding; an Eigen matrix is a function of two indices.
-/

namespace Verif.Bounce

open Verif Verif.Outcome

/-- A square matrix acting on VEVs with `n` components. -/
abbrev Mat (n : Nat) := Fin n → Fin n → ℝ

/-- bounce_solution.cpp:85-86 (`MatrixXd::Identity`) -/
def identity (n : Nat) : Mat n := fun i j => if i = j then 1 else 0

/-- bounce_solution.cpp:107-116 `TransformIntoOptimalDiscreteSymmetry`; also the product
`GroupElement * TrueVacuum` of bounce_solution.cpp:91. -/
noncomputable def applyMat {n : Nat} (m : Mat n) (v : Fin n → ℝ) : Fin n → ℝ :=
  fun i => (List.finRange n).foldl (fun acc j => acc + m i j * v j) 0

/-- src/utility/utility.cpp:56-65 `L2NormVector` -/
noncomputable def l2Norm (v : List ℝ) : ℝ := Real.sqrt (v.foldl (fun acc x => acc + x * x) 0)

/-- bounce_solution.cpp:91-94: `DeltaVEV` starts as a copy of the false vacuum and the differences to
the true vacuum – not to the candidate – are appended. -/
def deltaVev {n : Nat} (fv tv : Fin n → ℝ) : List ℝ :=
  (List.finRange n).map fv ++ (List.finRange n).map fun i => fv i - tv i

/-- bounce_solution.cpp:89-101 -/
noncomputable def symmetryLoop {n : Nat} (fv tv : Fin n → ℝ) : List (Mat n) → ℝ → Mat n → Mat n
  | [], _, best => best
  | g :: gs, dist, best =>
    if l2Norm (deltaVev fv tv) < dist then symmetryLoop fv tv gs (l2Norm (deltaVev fv tv)) g
    else symmetryLoop fv tv gs dist best

/-- bounce_solution.cpp:74-105 `CalculateOptimalDiscreteSymmetry` -/
noncomputable def optimalSymmetry {n : Nat} (fv tv : Fin n → ℝ) (gs : List (Mat n)) : Mat n :=
  symmetryLoop fv tv gs (10 ^ 100) (identity n)

/-- bounce_solution.cpp:564-581 `TunnelingRate`; `temps` are the temperatures of the solutions,
`action` the spline of the action. -/
noncomputable def tunnelingRate (temps : List ℝ) (action : ℝ → ℝ) (t : ℝ) : Outcome ℝ :=
  match temps.head?, temps.getLast? with
  | some lo, some hi =>
    if t < lo ∨ t > hi then ok 0
    else if action t < 0 then ok (10 ^ 100)
    else ok (t ^ 4 * (action t / (2 * Real.pi * t)) ^ (3 / 2 : ℝ) * Real.exp (-action t / t))
  | _, _ => ub .emptyContainer

/-- bounce_solution.cpp:583-588 `HubbleRate` -/
noncomputable def hubbleRate (gstar mpl t : ℝ) : ℝ :=
  Real.pi * Real.sqrt gstar / Real.sqrt 90 * t ^ 2 / mpl

/-- bounce_solution.cpp:590-599 `CalcGstarPureRad` -/
noncomputable def gstarPureRad (nHiggs : Nat) : ℝ :=
  ((8 * 2 + 3 * 3 + 2 + nHiggs : Nat) : ℝ) + 7 / 8 * ((6 * 3 * 2 * 2 + 3 * 2 * 2 + 3 * 2 : Nat) : ℝ)

/-- bounce_solution.cpp:717-722 `CalcFalseVacFraction`; `integral` is the outer integral of the GSL. -/
noncomputable def falseVacFraction (vwall integral : ℝ) : ℝ :=
  Real.exp (-(4 * Real.pi / 3 * vwall ^ 3) * integral)

/-- bounce_solution.cpp:728: the goal for the exponent at a given fraction.
`CalcTempAtFalseVacFraction` compares `prefac * integral` with it. -/
noncomputable def exponentGoal (frac : ℝ) : ℝ := -Real.log frac

/-- The members involved in the inverse time scale. -/
structure ScaleState (K : Type) where
  betaH : K
  tperc : K
  set : Bool

/-- bounce_solution.cpp:1083-1093 `CalculateInvTimeScale`; `deriv t` is the GSL derivative of the action
over temperature at `t`. -/
def calcInvTimeScale {K : Type} [Mul K] (deriv : K → K) (s : ScaleState K) : Outcome (ScaleState K) :=
  if s.set = false then err .runtime else ok { s with betaH := s.tperc * deriv s.tperc }

/-- bounce_solution.cpp:1095-1099 `GetInvTimeScale` -/
def getInvTimeScale {K : Type} [Mul K] [Neg K] [One K] [DecidableEq K] (deriv : K → K)
    (s : ScaleState K) : Outcome (K × ScaleState K) := do
  let s' ← if s.betaH = -1 then calcInvTimeScale deriv s else ok s
  ok (s'.betaH, s')

end Verif.Bounce
