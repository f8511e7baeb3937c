import Mathlib.Algebra.Order.Field.Basic
import Mathlib.Algebra.BigOperators.Group.Finset.Basic
import Mathlib.Data.Fintype.BigOperators
import Verif.Flt

/-!
# The action of the bounce, src/bounce_solution/action_calculation.cpp:124-151, 1011-1090 and 1546-1796

The normal force, the check of the path and the alternation of the one-dimensional solution (`C69`) with the
deformation of the path (`C71`).
-/

namespace Verif.Action

/-! ## The normal force and the check of the path -/

section Force

variable {K : Type} [Field K] {n : Nat}

/-- `operator*` for two vectors, include/BSMPT/utility/utility.h:188-205. -/
def dotp (a b : Fin n → K) : K := ∑ i, a i * b i

/-- `NormalForce` and `NormalForceBernstein`, action_calculation.cpp:124-151, with the first and second derivative of
the path. -/
def normalForce (dldrho : K) (gradient dphi d2phi : Fin n → K) : Fin n → K :=
  fun i => dldrho ^ 2 * d2phi i - (gradient i - dotp gradient dphi * dphi i)

end Force

section Check

variable {K : Type} [Field K] [LinearOrder K]

/-- `std::max(a, b)`: the second argument only if the first is less. -/
def maxStd (a b : Flt K) : Flt K := if Flt.lt a b then b else a

/-- The loop of `PathDeformationCheck`, action_calculation.cpp:1035-1059: `rel` is the norm of the normal force
relative to that of the gradient. No result if the bound on the passes is used up. -/
def checkLoop (rel : K → Flt K) (delta hi : K) : Nat → K → Flt K → Option (Flt K)
  | 0, _, _ => none
  | n + 1, np, acc =>
    if np ≤ hi then checkLoop rel delta hi n (np + delta) (maxStd acc (rel np)) else some acc

/-- `PathDeformationCheck`, action_calculation.cpp:1011-1090, for a trajectory from `lf` to `lb`; `knots` is
`NumberPathKnots`. -/
def pathCheck (fuel : Nat) (knots : K) (rel : K → Flt K) (lf lb : K) : Option Bool :=
  let delta := (lb - lf) / (10 * knots)
  (checkLoop rel delta (lb - delta / 10) fuel (lf + delta) (.fin 0)).map
    fun e => Flt.lt e (.fin (5 / 100))

end Check

/-! ## The calculation of the action -/

/-- `ActionStatus`, action_calculation.h:103-115. -/
inductive Status where
  | success
  | notCalculated
  | integration1DFailed
  | pathDeformationNotConverged
  | pathDeformationCrashed
  | falseVacuumNotMinimum
  | backwardsPropagationFailed
  | neverUndershootOvershoot
  | undershootOvershootNegativeGrad
  | notEnoughPointsForSpline
  deriving DecidableEq, Repr

/-- The members of `BounceActionInt` that the calculation uses. `path` is the path with its spline; `sol` are the saved
lists `rho_sol`, `l_sol` and `dldrho_sol`. -/
structure Obj (P T K : Type) where
  path : P
  status : Status
  action : K
  oneD : Bool
  pathConv : Bool
  without1D : Bool
  under : Bool
  over : Bool
  sol : Option T

/-- What `Solve1DBounce` does on an object without failure, see `C69`: it returns because the potential of the true
minimum is too high (action_calculation.cpp:811-817); it fails in one of the trajectories with some status; or it
ends with the last trajectory, converged or not. -/
inductive Solved (T : Type) where
  | early
  | failed (s : Status) (under over : Bool) (t : T)
  | done (conv under over : Bool) (t : T)

/-- The parts of the calculation that are modelled elsewhere or trusted. A trajectory comprises the four lists and the
splines through them. -/
structure Env (P T K : Type) where
  solve : P → Solved T
  /-- the number of points of a trajectory -/
  size : T → Nat
  /-- `PathDeformationCheck` with the list of the first and the spline of the second trajectory -/
  check : P → T → T → Bool
  /-- `PathDeformation`: the new path and whether the error was satisfactory -/
  deform : P → T → P × Bool
  kinetic : T → K
  potential : P → T → K
  /-- `Calc_d2Vdl2(Spline.L)` is negative -/
  falseVacuumUnstable : P → Bool

section Calc

variable {P T K : Type} [Field K] [LinearOrder K]

/-- The effect of `Solve1DBounce`. If the object has failed before, the first trajectory returns at once
(action_calculation.cpp:647 and 867). -/
def applySolve (E : Env P T K) (o : Obj P T K) (t : T) : Obj P T K × T :=
  match E.solve o.path with
  | .early => ({ o with status := .backwardsPropagationFailed }, t)
  | .failed s u v t' =>
    if o.status = .notCalculated then
      ({ o with status := s, oneD := false, under := u, over := v }, t')
    else ({ o with oneD := false, under := false, over := false }, t)
  | .done c u v t' =>
    if o.status = .notCalculated then ({ o with oneD := c, under := u, over := v }, t')
    else ({ o with oneD := false, under := false, over := false }, t)

/-- The tests action_calculation.cpp:1616-1627 and 1664-1675. -/
def never (o : Obj P T K) : Obj P T K :=
  if (o.under = false ∨ o.over = false) ∧ -1 ≤ o.action then
    { o with status := .neverUndershootOvershoot }
  else o

/-- How a pass of the loop ends. -/
inductive Flow where
  | ret
  | brk
  | cont
  deriving DecidableEq

/-- The second half of a pass, after the new path is set, action_calculation.cpp:1657-1725; `t` is the trajectory before the
deformation, whose spline is still in use in the check. -/
def afterDeform (E : Env P T K) (o : Obj P T K) (t : T) : Obj P T K × T × Flow :=
  let r := applySolve E o t
  let o' := never r.1
  if o'.status ≠ .notCalculated then (o', r.2, .ret)
  else if o'.without1D then ({ o' with pathConv := true, sol := some r.2 }, r.2, .brk)
  else if E.check o'.path r.2 t then ({ o' with pathConv := true, sol := some r.2 }, r.2, .brk)
  else if o'.oneD = false then ({ o' with status := .integration1DFailed }, r.2, .ret)
  else (o', r.2, .cont)

/-- One pass of the loop, action_calculation.cpp:1609-1726. `PathDeformationCrashed` cannot occur since the list of
knots is never empty; the test 1705-1709 is never true since the loop runs only while the path has not converged. -/
def roundOf (E : Env P T K) (o : Obj P T K) (t : T) : Obj P T K × T × Flow :=
  let o1 := never o
  if o1.status ≠ .notCalculated then (o1, t, .ret)
  else if E.size t < 4 then ({ o1 with status := .notEnoughPointsForSpline }, t, .ret)
  else
    let d := E.deform o1.path t
    afterDeform E { o1 with path := d.1, without1D := o1.without1D || d.2 } t

/-- The loop, action_calculation.cpp:1605-1726, with at most `n` passes; the flag is `true` if the function returns. -/
def rounds (E : Env P T K) : Nat → Obj P T K → T → Obj P T K × T × Bool
  | 0, o, t => (o, t, false)
  | n + 1, o, t =>
    if o.pathConv then (o, t, false)
    else
      match roundOf E o t with
      | (o', t', .ret) => (o', t', true)
      | (o', t', .brk) => (o', t', false)
      | (o', t', .cont) => rounds E n o' t'

/-- The end of the function, action_calculation.cpp:1745-1796. The two estimates of the action from one of its parts are only
logged. -/
def finish (E : Env P T K) (o : Obj P T K) (t : T) : Obj P T K :=
  if o.oneD = false then { o with status := .integration1DFailed }
  else { o with action := E.kinetic t + E.potential o.path t }

/-- The branch for more than one field after the first solution, action_calculation.cpp:1587-1732. -/
def multi (E : Env P T K) (maxInt : Nat) (o : Obj P T K) (t : T) : Obj P T K :=
  if o.status ≠ .notCalculated then o
  else if E.size t < 4 then { o with status := .notEnoughPointsForSpline }
  else
    match rounds E (maxInt - 1) { o with pathConv := E.check o.path t t, sol := some t } t with
    | (o', _, true) => o'
    | (o', t', false) =>
      if o'.pathConv = false then { o' with status := .pathDeformationNotConverged }
      else finish E o' t'

/-- `CalculateAction`, action_calculation.cpp:1546-1796. `empty` is the trajectory without points. -/
def calculate (E : Env P T K) (empty : T) (maxInt : Nat) (several : Bool) (o : Obj P T K) : Obj P T K :=
  if E.falseVacuumUnstable o.path then { o with status := .falseVacuumNotMinimum }
  else
    let r := applySolve E { o with oneD := false, pathConv := false } empty
    if several then multi E maxInt r.1 r.2 else finish E r.1 r.2

end Calc

end Verif.Action
