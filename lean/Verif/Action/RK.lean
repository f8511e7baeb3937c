import Mathlib.Algebra.Field.Defs
import Mathlib.Algebra.BigOperators.Group.Finset.Basic

/-!
# The integration step, src/bounce_solution/action_calculation.cpp:152-226

A state is the pair of `l` and `dl/drho`, here a function of 0 and 1. Doubles are elements of a field
without rounding, also the constants of the tableau.
-/

namespace Verif.Action

variable {K : Type} [Field K]

/-- `d2ldrho2`, action_calculation.cpp:153-160; `dV` is the tabulated derivative of the potential. -/
def d2ldrho2 [DecidableEq K] (dV : K → K) (alpha l rho dldrho : K) : K :=
  if dldrho = 0 then dV l else dV l - alpha * dldrho / rho

/-- A pair as a function of 0 and 1. -/
def pair (a b : K) : Nat → K := fun i => if i = 0 then a else b

/-- `AuxFunctionDev`, action_calculation.cpp:162-170. -/
def auxDev [DecidableEq K] (dV : K → K) (alpha rho : K) (v : Nat → K) : Nat → K :=
  pair (v 1) (d2ldrho2 dV alpha (v 0) rho (v 1))

/-- `RK5_step`, action_calculation.cpp:172-230, for the right hand side `f`: the new state and the
estimate of the error. -/
def rk5Step (f : K → (Nat → K) → Nat → K) (y dydx : Nat → K) (rho h : K) :
    (Nat → K) × (Nat → K) :=
  let ak2 := f (rho + 1 / 5 * h) (fun i => y i + 1 / 5 * h * dydx i)
  let ak3 := f (rho + 3 / 10 * h) (fun i => y i + h * (3 / 40 * dydx i + 9 / 40 * ak2 i))
  let ak4 := f (rho + 3 / 5 * h)
    (fun i => y i + h * (3 / 10 * dydx i + -9 / 10 * ak2 i + 6 / 5 * ak3 i))
  let ak5 := f (rho + 1 * h)
    (fun i => y i + h * (-11 / 54 * dydx i + 5 / 2 * ak2 i + -70 / 27 * ak3 i + 35 / 27 * ak4 i))
  let ak6 := f (rho + 7 / 8 * h)
    (fun i => y i + h * (1631 / 55296 * dydx i + 175 / 512 * ak2 i + 575 / 13824 * ak3 i
      + 44275 / 110592 * ak4 i + 253 / 4096 * ak5 i))
  let dc1 := 37 / 378 - 2825 / 27648
  let dc3 := 250 / 621 - 18575 / 48384
  let dc4 := 125 / 594 - 13525 / 55296
  let dc5 := -277 / 14336
  let dc6 := 512 / 1771 - 1 / 4
  (fun i => y i + h * (37 / 378 * dydx i + 250 / 621 * ak3 i + 125 / 594 * ak4 i
      + 512 / 1771 * ak6 i),
    fun i => h * (dc1 * dydx i + dc3 * ak3 i + dc4 * ak4 i + dc5 * ak5 i + dc6 * ak6 i))

/-- The call of the step in `IntegrateBounce`, action_calculation.cpp:656-661: `rho` and the step size
become `float`s (`fl`), action_calculation.cpp:173-174. -/
def bounceStep [DecidableEq K] (fl : K → K) (dV : K → K) (alpha rho l v step : K) :
    (Nat → K) × (Nat → K) :=
  rk5Step (auxDev dV alpha) (pair l v) (pair v (d2ldrho2 dV alpha l rho v)) (fl rho) (fl step)

end Verif.Action
