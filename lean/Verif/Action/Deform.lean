import Mathlib.Algebra.Order.Field.Basic
import Verif.Outcome
import Verif.Action.Calc

/-!
# The deformation of the path, src/bounce_solution/action_calculation.cpp:1092-1456

Knots are vectors relative to the false vacuum. The smoothing with the Bernstein polynomials (`C66`) and the forces on the
knots are parameters; the bookkeeping of paths, errors and step sizes is modelled.
-/

namespace Verif.Action

variable {K : Type} [Field K] [LinearOrder K] {d : Nat}

/-- A point in field space. -/
abbrev Vec (K : Type) (d : Nat) := Fin d → K

/-- The parameters of the knots, action_calculation.cpp:1360: no result if the bound on the passes is used up. -/
def knotLoop (delta hi : K) : Nat → K → Option (List K)
  | 0, _ => none
  | n + 1, np => if np ≤ hi then (knotLoop delta hi n (np + delta)).map (np :: ·) else some []

/-- The parameters `l_fornextpath` of the knots for a trajectory from `lf` to `lb` on a path of length `L`,
action_calculation.cpp:1326-1327, 1358-1389; `knots` is `NumberPathKnots`. -/
def knotParams (fuel : Nat) (knots lf lb L : K) : Option (List K) :=
  let delta := (lb - lf) / knots
  (knotLoop delta (lb - delta / 10) fuel lf).map (· ++ [L])

/-- What `SinglePathDeformation` finds on a path: position after smoothing and force for the first `NumberPathKnots`
knots, the largest norm of the gradient and the largest norm of the force (action_calculation.cpp:1127-1252). The
maxima start from zero and never become NaN. -/
structure Eval (K : Type) (d : Nat) where
  knots : List (Vec K d × Vec K d)
  grad : K
  force : K

/-- `MaximumRelativeError`, action_calculation.cpp:1252. Division by zero gives infinity or NaN, neither of which is
less than anything. -/
def relError (e : Eval K d) : Flt K := if e.grad = 0 then .nan else .fin (e.force / e.grad)

/-- The variables of `PathDeformation`. -/
structure DefSt (K : Type) (d : Nat) where
  best : List (Vec K d)
  next : List (Vec K d)
  err : Flt K
  grad : K
  step : K
  forces : List (Vec K d)
  noBest : Nat

/-- `ReductorCalculator(MaximumGradient) / stepsize`, action_calculation.cpp:1004-1009 and 1397. -/
def reductor (L : K) (s : DefSt K d) : K := s.grad / L / s.step

/-- The knots moved by the force, action_calculation.cpp:1233; the last knot stays. -/
def moveKnots (N : Nat) (red : K) (e : Eval K d) (next : List (Vec K d)) : List (Vec K d) :=
  e.knots.map (fun p => fun i => p.1 i + p.2 i / red) ++ next.drop N

/-- The bounds on the step size, action_calculation.cpp:1302-1303. -/
def clampStep (x : K) : K := max (min x (1 / 10)) (1 / 10 ^ 4)

/-- The number of knots whose force is against the force before, action_calculation.cpp:1286-1293. -/
def reversed (new old : List (Vec K d)) : Nat :=
  ((List.zipWith (fun a b => decide (dotp a b < 0)) new old).filter id).length

/-- The step size and the next path, action_calculation.cpp:1284-1304. -/
def adapt (s : DefSt K d) (old : List (Vec K d)) : DefSt K d :=
  if old = [] then s
  else if (s.forces.length : K) * (15 / 100) < (reversed s.forces old : K) then
    { s with next := s.best, step := clampStep (s.step / 5) }
  else { s with step := clampStep (s.step * (3 / 2)) }

/-- `SinglePathDeformation`, action_calculation.cpp:1092-1307. -/
def single (eval : List (Vec K d) → Eval K d) (N : Nat) (L : K) (s : DefSt K d) : DefSt K d :=
  let e := eval s.next
  let next := moveKnots N (reductor L s) e s.next
  let forces := e.knots.map Prod.snd
  if Flt.gt s.err (relError e) then
    adapt { s with best := next, next := next, err := relError e, grad := e.grad, forces := forces } s.forces
  else adapt { s with next := next, forces := forces } s.forces

/-- The loop of `PathDeformation`, action_calculation.cpp:1394-1430, with at most `n` passes; the flag is
`PathDeformationConvergedWithout1D`. -/
def deformLoop (eval : List (Vec K d) → Eval K d) (N : Nat) (L : K) : Nat → DefSt K d → DefSt K d × Bool
  | 0, s => (s, false)
  | n + 1, s =>
    let s1 := single eval N L s
    let s2 := { s1 with noBest := if Flt.ne s1.err s.err then 0 else s.noBest + 1 }
    if Flt.lt s2.err (.fin (5 / 100)) then (s2, true)
    else if Flt.gt s2.err (.fin 5) then (s2, false)
    else if 20 < s2.noBest then (s2, false)
    else deformLoop eval N L n s2

/-- The variables at the beginning, action_calculation.cpp:1319-1393: `path` are the knots, `grad` the largest gradient on
them. -/
def startDeform (path : List (Vec K d)) (grad : K) : DefSt K d :=
  { best := path, next := path, err := .fin (10 ^ 100), grad := grad, step := 2 / 10 ^ 5, forces := [],
    noBest := 0 }

/-- The knots back in field space, action_calculation.cpp:1448-1451. -/
def reshift (N : Nat) (fv : Vec K d) (best : List (Vec K d)) : Outcome (List (Vec K d)) :=
  if best.length < N + 1 then .ub .outOfBounds
  else .ok ((best.take (N + 1)).map (fun v => fun i => fv i + v i) ++ best.drop (N + 1))

/-- `PathDeformation`, action_calculation.cpp:1309-1456: the new path and the flag. -/
def pathDeformation (eval : List (Vec K d) → Eval K d) (N maxSingle : Nat) (L : K) (fv : Vec K d)
    (path : List (Vec K d)) (grad : K) : Outcome (List (Vec K d) × Bool) :=
  let r := deformLoop eval N L maxSingle (startDeform path grad)
  (reshift N fv r.1.best).bind fun p => .ok (p, r.2)

end Verif.Action
