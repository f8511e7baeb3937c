import Verif.Wall.Model
import Mathlib.Algebra.Order.Group.Abs
import Mathlib.Algebra.Order.Field.Basic

/-!
# Model of the search for the top of the barrier (`WallThickness1D.cpp`)

The minimiser of GSL for functions of one variable is a parameter.
-/

set_option linter.unusedVariables false

namespace Verif.Wall.Search

open Outcome

variable {S K : Type} [Field K] [LinearOrder K]

/-- `gsl_min_fminimizer`, as far as it is used: the state and the status after
`gsl_min_fminimizer_set(s, &F, guess, 0, 1)`, one iteration with its status, the ends of the interval, the
position of the minimum and the value there. -/
structure Brent (S K : Type) where
  set : K → S × Int
  iterate : S → S × Int
  lower : S → K
  upper : S → K
  x : S → K
  f : S → K

/-- `gsl_min_test_interval(xlow, xup, tol, 0)` of GSL for a tolerance that is not negative: `GSL_EINVAL` (4),
`GSL_SUCCESS` (0) or `GSL_CONTINUE` (-2). -/
def testInterval (xlow xup tol : K) : Int :=
  if xup < xlow then 4 else if |xup - xlow| < tol then 0 else -2

/-- `GSL_Tolerance`, WallThickness1D.cpp:36. -/
def tolerance : K := 1 / 10 ^ 4

/-- The loop WallThickness1D.cpp:184-194.  The first argument is the number of iterations that are still
allowed after the present one.  The variables `xsol` and `fval` are those of the final state: they are only
used if the loop ends with success, and then they have been set from this state. -/
def loop (m : Brent S K) : Nat → S → S × Int
  | left, s =>
    let r := m.iterate s
    if r.2 ≠ 0 then r
    else
      let status := testInterval (m.lower r.1) (m.upper r.1) tolerance
      if status = -2 then
        match left with
        | 0 => (r.1, status)
        | left' + 1 => loop m left' r.1
      else (r.1, status)

/-- `GSL_Maximize_From_S_gen_line`, WallThickness1D.cpp:159-208: the solutions afterwards, each a pair of
position and value, and the result.  The status of `gsl_min_fminimizer_set` (line 180) is not used.
`MaxIter` is 600 (line 171). -/
def maximize (m : Brent S K) (sols : List (K × K)) (guess : K) : List (K × K) × Bool :=
  let r := loop m (600 - 1) (m.set guess).1
  if r.2 = 0 then (sols ++ [(m.x r.1, m.f r.1)], true) else (sols, false)

/-- The loop WallThickness1D.cpp:97-104.  `rnd n` is the `n`-th number that `std::generate_canonical`
delivers; `nSolutions` is 20 (line 93).  The code has no bound on the number of tries; `none`: not finished
within the fuel. -/
def tries (m : Brent S K) (rnd : Nat → K) : (fuel : Nat) → (n : Nat) → List (K × K) → Option (List (K × K))
  | 0, _, _ => none
  | fuel + 1, n, sols =>
    let sols' := (maximize m sols (rnd n)).1
    if sols'.length ≠ 20 then tries m rnd fuel (n + 1) sols' else some sols'

/-- The vector `solV` after WallThickness1D.cpp:117-135; a vector of the wrong length is only reported. -/
def position (t : K) (vcrit solV : List K) : List K :=
  if solV.length ≠ 0 ∧ solV.length ≠ vcrit.length then solV else vcrit.map fun v => t * v

/-- `GSL_Find_Maximum_line`, WallThickness1D.cpp:75-157: the vector `solV` afterwards; `none`: the tries do not
end within the fuel.  `order` is `MinimizeOrderVEV` and `veff` the potential as a function of all fields. -/
def findLine (m : Brent S K) (rnd : Nat → K) (fuel : Nat) (order : List K → Outcome (List K))
    (veff : List K → K) (vcrit solV : List K) : Outcome (Option (List K)) :=
  match tries m rnd fuel 0 [] with
  | none => ok none
  | some [] => err .outOfRange
  | some (first :: rest) => do
    let t := (choose first rest).1
    let sol := position t vcrit solV
    let top ← order sol
    let crit ← order vcrit
    let vMin := min (veff (crit.map fun _ => 0)) (veff crit)
    ok (some (sol ++ [veff top - vMin]))

/-- `calculate_wall_thickness_1D`, WallThickness1D.cpp:60-73, with the square root and `EWSBVEV` as
parameters. -/
def thickness (m : Brent S K) (rnd : Nat → K) (fuel : Nat) (order : List K → Outcome (List K))
    (veff : List K → K) (sqrt : K → K) (ewsb : List K → K) (vcrit : List K) : Outcome (Option K) := do
  match ← findLine m rnd fuel order veff vcrit [] with
  | none => ok none
  | some barrier =>
    let vb ← at' barrier vcrit.length
    let crit ← order vcrit
    ok (some (if vb ≠ 0 then ewsb crit / sqrt (8 * vb) else 0))

end Verif.Wall.Search
