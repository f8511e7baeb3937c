import Verif.Tracer.Phase

/-!
# Model of the phase tracker

Points are an arbitrary type `P`, temperatures and distances are in an ordered field `K` (no rounding).
Everything that involves the potential is a field of `Env`, so that the theorems hold for every potential.
-/

namespace Verif.Tracer

/-- What the tracker gets from the potential and from the geometric helpers. -/
structure Env (P K : Type) where
  /-- `LocateMinimum` from a point at a temperature, followed by `ReduceVEV` and
  `ConvertToNonFlatDirections`, minimum_tracer.cpp:549-556 -/
  locate : P → K → P
  /-- `LengthGradient > GradientThreshold` or some component is NaN, minimum_tracer.cpp:575-579 -/
  bad : P → K → Bool
  /-- `L2NormVector(new_point - point)`, minimum_tracer.cpp:563 -/
  dist : P → P → K
  /-- `SmallestEigenvalue(point, Hessian) < 0`, minimum_tracer.cpp:628 -/
  neg : P → K → Bool
  /-- the potential, minimum_tracer.cpp:539-545 without the division that is undone in 615 -/
  pot : P → K → K
  /-- `FindZeroSmallestEigenvalue(point_1, T_1, point_2, T_2)` with a positive temperature, followed by
  `ReduceVEV` and `ConvertToNonFlatDirections`; `none` if the temperature is not positive,
  minimum_tracer.cpp:632-641 -/
  zero : P → K → P → K → Option (P × K)
  /-- the number of VEVs, `ThresholdDistance` -/
  dim : K
  /-- `IsGlobMin`: whether the point is the global minimum at the temperature -/
  glob : P → K → Bool

/-- The variables of the tracking loop.  `glob` is `old_min_is_global`, `globEnd` is `globMinEndT`
(`none`: not assigned) of the version with global minima, minimum_tracer.cpp:254-494; the version without,
minimum_tracer.cpp:496-698, differs only by not having these two. -/
structure TState (P K : Type) where
  t : K
  dT : K
  point : P
  isInMin : Int
  mins : List (Minimum P K)
  glob : Bool := true
  globEnd : Option K := none

/-- How one round of the loop ends: `return` or `break` inside the loop, or another round. -/
inductive Next (P K : Type)
  | ret (mins : List (Minimum P K)) (globEnd : Option K)
  | brk (s : TState P K)
  | cont (s : TState P K)

section

variable {P K : Type} [Field K] [LinearOrder K]

/-- The step for the next round, minimum_tracer.cpp:621-622 and 675-677.  For a distance of zero the
C++ factor is infinite, so that the initial step is taken. -/
def nextStep (dim initialdT dT dist : K) : K :=
  if dist = 0 then initialdT
  else
    let d := dT * ((1 / 2) * dim / dist)
    if |initialdT| ≤ |d| then initialdT else d

/-- The end of a round, minimum_tracer.cpp:684-691. -/
def advance (finalT : K) (s : TState P K) : Next P K :=
  if s.t = finalT then .brk s
  else if |finalT - s.t| > |s.dT| then .cont { s with t := s.t + s.dT }
  else .cont { s with t := finalT }

/-- Recording whether a minimum is the global one, minimum_tracer.cpp:407-420 and 448-461. -/
def noteGlob (e : Env P K) (p : P) (t : K) (s : TState P K) : TState P K :=
  if s.glob then
    if e.glob p t then s else { s with glob := false, globEnd := some t }
  else s

/-- One round of the loop of `TrackPhase`, minimum_tracer.cpp:537-692 (296-488 with global minima). -/
def trackRound (e : Env P K) (unprotected : Bool) (initialT finalT initialdT : K) (s : TState P K) :
    Next P K :=
  let q := e.locate s.point s.t
  let d := e.dist q s.point
  if |s.dT| < 1 / 10 ^ 5 then .brk s
  else if e.bad q s.t ∨ d > e.dim then
    if initialT = s.t then .ret s.mins s.globEnd
    else advance finalT { s with t := s.t - s.dT, dT := s.dT / 10 }
  else if unprotected then
    advance finalT { s with
      mins := s.mins ++ [⟨q, s.t, e.pot q s.t, 0⟩]
      point := q
      dT := nextStep e.dim initialdT s.dT d }
  else if e.neg q s.t then
    if s.isInMin = -1 then
      match e.zero s.point (s.t - s.dT) q s.t with
      | some (z, tz) =>
        let s := noteGlob e z tz { s with t := tz }
        .brk { s with mins := s.mins ++ [⟨z, tz, e.pot z tz, 0⟩] }
      | none => .brk s
    else .ret s.mins s.globEnd
  else if s.isInMin = 1 then .brk s
  else
    let s := noteGlob e q s.t s
    advance finalT { s with
      mins := s.mins ++ [⟨q, s.t, e.pot q s.t, 0⟩]
      point := q
      isInMin := -1
      dT := nextStep e.dim initialdT s.dT d }

/-- The loop of `TrackPhase`, minimum_tracer.cpp:537 with its condition.  The result is the list and the
value of `globMinEndT` after minimum_tracer.cpp:493. -/
def trackLoop (e : Env P K) (unprotected : Bool) (initialT finalT initialdT : K) :
    Nat → TState P K → Option (List (Minimum P K) × Option K)
  | 0, _ => none
  | fuel + 1, s =>
    let fin := fun s : TState P K => some (s.mins, if s.glob then some s.t else s.globEnd)
    if (finalT - s.t) / s.dT ≥ 0 then
      match trackRound e unprotected initialT finalT initialdT s with
      | .ret l g => some (l, g)
      | .brk s => fin s
      | .cont s => trackLoop e unprotected initialT finalT initialdT fuel s
    else fin s

/-- `TrackPhase`, minimum_tracer.cpp:254-494 and 496-698; `start` is `point_In` after `ReduceVEV` and
`ConvertToNonFlatDirections`. -/
def trackPhase (e : Env P K) (unprotected : Bool) (fuel : Nat) (start : P) (initialT finalT dT : K) :
    Option (List (Minimum P K) × Option K) :=
  let d := if (finalT - initialT) / dT < 0 then dT * (-1) else dT
  trackLoop e unprotected initialT finalT d fuel
    { t := initialT, dT := d, point := start, isInMin := 0, mins := [] }

/-! ## The zero of the smallest eigenvalue -/

/-- The loop of `FindZeroSmallestEigenvalue`, minimum_tracer.cpp:209-249.  `loc` is `LocateMinimum`, `ev`
the smallest eigenvalue, `far` the test in 228-229. -/
def zeroLoop (loc : P → K → P) (ev : P → K → K) (far : P → Bool) (ev1 ev2 : K) :
    Nat → K → K → P → P × K → Option (P × K)
  | 0, _, _, _, _ => none
  | fuel + 1, t1, t2, pm, cand =>
    if |t1 / t2 - 1| > 1 / 10 ^ 8 then
      let tm := (t1 + t2) / 2
      let pm := loc pm tm
      let evm := ev pm tm
      let cand := if far pm then cand else if ev1 * evm > 0 then (pm, tm) else cand
      let t2 := if far pm then tm else t2
      if ev1 * evm > 0 then zeroLoop loc ev far ev1 ev2 fuel tm t2 pm cand
      else if ev2 * evm > 0 then zeroLoop loc ev far ev1 ev2 fuel t1 tm pm cand
      else some cand
    else some cand

/-- `FindZeroSmallestEigenvalue`, minimum_tracer.cpp:147-252; `dist` is `L2NormVector(a - b) / dim`. -/
def findZero (loc : P → K → P) (ev : P → K → K) (dist : P → P → K) (fuel : Nat) (p1 : P) (t1 : K)
    (p2 : P) (t2 : K) : Option (P × K) :=
  if ev p1 t1 * ev p2 t2 > 0 then some (p1, -1)
  else
    let allowed := max 1 (dist p1 p2)
    zeroLoop loc ev (fun p => decide (dist p p2 > allowed) || decide (dist p1 p > allowed))
      (ev p1 t1) (ev p2 t2) fuel t1 t2 p1 (p1, t1)

/-! ## Locating a minimum -/

/-- The loop of `LocateMinimum`, minimum_tracer.cpp:82-119: at most `maxiter` Newton (or gradient) steps
`step`, as long as the gradient is above the error.  `above x = false` also for a gradient that is NaN. -/
def locateLoop (above : P → Bool) (step : P → P) : Nat → P → P
  | 0, p => p
  | n + 1, p => if above p then locateLoop above step n (step p) else p

/-- `LocateMinimum`, minimum_tracer.cpp:54-122. -/
def locateMinimum (below above : P → Bool) (step : P → P) (maxiter : Nat) (guess : P) : P :=
  if below guess then guess else locateLoop above step maxiter guess

end

end Verif.Tracer
