import Mathlib.Algebra.Order.Field.Basic
import Mathlib.Algebra.Order.Group.Unbundled.Abs
import Verif.Outcome
import Verif.Flt

/-!
# Undershoot and overshoot, src/bounce_solution/action_calculation.cpp:628-985

The integration of one trajectory, the search for the true minimum along the path and the binary search
for the release point.
-/

namespace Verif.Action

variable {K : Type} [Field K] [LinearOrder K]

/-- A point of a trajectory: radius, position, velocity and acceleration. -/
structure Pt (K : Type) where
  rho : K
  l : Flt K
  v : Flt K
  a : Flt K

/-- `UndershootOvershootStatus`; `lost` is the last branch of action_calculation.cpp:723-727, an overshoot that
does not set `OvershotOnce`. -/
inductive Conv where
  | converged
  | undershoot
  | overshoot
  | lost
  deriving DecidableEq, Repr

/-- The condition of the loop, action_calculation.cpp:668-670, after `it` steps. -/
def goOn (error L : K) (it : Nat) (p : Pt K) : Bool :=
  (Flt.gt p.v (.fin error) && Flt.lt (p.l.map fun x => (x - L) / L) (.fin error)) || decide (it < 5)

/-- The loop of `IntegrateBounce`, action_calculation.cpp:666-698. `next` is the step of the integration with the
new step size (`C67`). The points are in reverse order. -/
def integrateLoop (next : Pt K → K → Pt K × K) (error L : K) : Nat → Nat → List (Pt K) → Pt K → K →
    List (Pt K) × Pt K
  | 0, _, done, p, _ => (done, p)
  | fuel + 1, it, done, p, step =>
    if goOn error L it p then
      integrateLoop next error L fuel (it + 1) (p :: done) (next p step).1 (next p step).2
    else (done, p)

/-- The classification, action_calculation.cpp:699-727. -/
def classify (error L : K) (p : Pt K) : Conv :=
  if Flt.le (p.v.map fun x => |x|) (.fin error) && Flt.le (p.l.map fun x => |x - L| / L) (.fin error)
  then .converged
  else if Flt.le p.v (.fin error) then .undershoot
  else if Flt.ge (p.l.map fun x => (x - L) / L) (.fin error) then .overshoot
  else .lost

/-- `IntegrateBounce`, action_calculation.cpp:628-729, after the analytic start `p1`, with the point `p0` at the
centre: the points of the trajectory and its class. -/
def integrate (next : Pt K → K → Pt K × K) (error L : K) (maxiter : Nat) (p0 p1 : Pt K) :
    List (Pt K) × Conv :=
  let r := integrateLoop next error L maxiter 0 [p0] p1 (p1.rho / 100)
  let c := classify error L r.2
  (if c = .undershoot then r.1.reverse else (r.2 :: r.1).reverse, c)

/-! ## The true minimum on the path -/

/-- Both loops of `BackwardsPropagation`, action_calculation.cpp:737-751 and 758-772: `move` is the change of `l0`. -/
def descend (move d2V : K → K) (L : K) : Nat → K → Option K
  | 0, _ => none
  | n + 1, l00 =>
    let l0 := l00 - move l00
    if |(l0 - l00) / L| < 1 / 10 ^ 8 ∧ 0 < d2V l0 ∧ l0 ≤ L / 100 then some l0
    else descend move d2V L n l0

/-- `BackwardsPropagation`, action_calculation.cpp:731-779. `old` is `Initial_lmin` before the call, without value
on a new object; `threshold` is `CalculateExactSolutionThreshold`, which reads it. The result is the new
`Initial_lmin` and the threshold. -/
def backwards (threshold : K → Option K) (dV d2V : K → K) (L : K) (old : Option K) :
    Outcome (K × Option K) :=
  let found := match descend (fun l => dV l / d2V l) d2V L 100 0 with
    | some l => some l
    | none => descend (fun l => dV l / 100) d2V L 1000 0
  match found with
  | some l =>
    match old with
    | none => .ub .uninitialised
    | some o => .ok (l, threshold o)
  | none => .ok (-1 * L / 1000, none)

/-- The search for the upper limit, action_calculation.cpp:819-838; `V` and `dV` along the path. -/
def scanMax (V dV : K → K) (lmin L : K) : Nat → Nat → K
  | 0, _ => L
  | n + 1, j =>
    if 0 < V (lmin + (L - lmin) * ((j + 1 : Nat) : K) / 1000) then
      lmin + (L - lmin) * ((j + 1 : Nat) : K) / 1000
    else if dV ((L - lmin) * ((j + 1 : Nat) : K) / 1000) < 0 then
      lmin + (L - lmin) * ((j + 1 : Nat) : K) / 1000
    else scanMax V dV lmin L n (j + 1)

/-! ## The binary search -/

/-- What the search sees of a trajectory: its class and number of points, `none` if the start failed. -/
abbrev Shot := Option (Conv × Nat)

/-- The variables of `Solve1DBounce`. -/
structure Search (K : Type) where
  lmin : K
  lmax : K
  muMin : K
  muMax : K
  logMode : Bool
  over : Bool
  under : Bool

/-- How the search ends: a release point, a failed trajectory (`Integration1DFailed`), a failure of the start (the
status is set there) or the bound on the number of trajectories. -/
inductive Ending (K : Type) where
  | converged (l0 : K)
  | failed
  | startFailed
  | notConverged
  deriving DecidableEq

/-- The flags, action_calculation.cpp:714 and 721. -/
def flags (s : Search K) (c : Conv) : Search K :=
  { s with over := s.over || (c == .overshoot), under := s.under || (c == .undershoot) }

/-- One pass in the linear mode, action_calculation.cpp:861-925. `shoot l0 delta` is the trajectory released at
`l0` with `delta = l0 - Initial_lmin`; `lg` is the logarithm. -/
def linearPass (shoot : K → K → Shot) (lg : K → K) (init L error : K) (s : Search K) :
    Search K × Option (Ending K) :=
  let l0 := (s.lmax + s.lmin) / 2
  match shoot l0 (l0 - init) with
  | none => (s, some .startFailed)
  | some (c, n) =>
    let s1 := flags s c
    if n ≤ 7 then (s1, some .failed)
    else if c = .converged then (s1, some (.converged l0))
    else
      if (s1.lmax - s1.lmin) / L < error * (1 / 10 ^ 7) ∧ s1.over = true then
        (s1, some (.converged l0))
      else
        let s2 := if (s1.lmax - s1.lmin) / L < error * (1 / 10 ^ 7) then
          { s1 with logMode := true, muMax := lg (s1.lmax - s1.lmin) + 2 } else s1
        (if c = .undershoot then { s2 with lmax := l0 } else { s2 with lmin := l0 }, none)

/-- One pass in the logarithmic mode, action_calculation.cpp:926-981; `ex` is the exponential function. -/
def logPass (shoot : K → K → Shot) (ex : K → K) (init : K) (s : Search K) :
    Search K × Option (Ending K) :=
  let mu := (s.muMin + s.muMax) / 2
  match shoot (init + ex mu) (ex mu) with
  | none => (s, some .startFailed)
  | some (c, n) =>
    let s1 := flags s c
    if n ≤ 7 then (s1, some .failed)
    else if c = .converged then (s1, some (.converged (init + ex mu)))
    else if |s1.muMax - s1.muMin| < 1 / 10 ^ 7 then (s1, some (.converged (init + ex mu)))
    else (if c = .undershoot then { s1 with muMax := mu } else { s1 with muMin := mu }, none)

/-- One pass of the loop, action_calculation.cpp:859-982: after the change of the mode the logarithmic pass follows at
once. -/
def pass (shoot : K → K → Shot) (ex lg : K → K) (init L error : K) (s : Search K) :
    Search K × Option (Ending K) :=
  if s.logMode then logPass shoot ex init s
  else
    match linearPass shoot lg init L error s with
    | (s', some e) => (s', some e)
    | (s', none) => if s'.logMode then logPass shoot ex init s' else (s', none)

/-- The loop, action_calculation.cpp:859-983. -/
def search (shoot : K → K → Shot) (ex lg : K → K) (init L error : K) :
    Nat → Search K → Search K × Ending K
  | 0, s => (s, .notConverged)
  | n + 1, s =>
    match pass shoot ex lg init L error s with
    | (s', some e) => (s', e)
    | (s', none) => search shoot ex lg init L error n s'

/-- The variables at the beginning, action_calculation.cpp:848-858. -/
def startSearch (lg : K → K) (lmin lmax : K) : Search K :=
  { lmin := lmin, lmax := lmax, muMin := -200, muMax := lg (lmax - lmin), logMode := false, over := false,
    under := false }

end Verif.Action
