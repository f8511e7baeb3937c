import Verif.Outcome
import Verif.Flt
import Verif.Tracer.Geometry
import Mathlib.Algebra.Order.Floor.Ring

/-!
# Model of the scans for bounce actions (`BounceSolution`)

Temperatures are elements of an ordered field `K` (no rounding).  The computed action may be NaN
(`Flt`).  `W` stands for the path and the two vacua a solution carries (`Path`, `TrueVacuum`,
`FalseVacuum`).  The potentials of the two phases and the action calculation are parameters (`Env`);
simplification: they depend on the temperature and the given path only, not on earlier calls.
An unqualified `abs` of a `double` is read as `std::abs`.
-/

namespace Verif.Bounce

open Verif Verif.Outcome Verif.Tracer

/-- An entry of `SolutionList`: temperature, action and the path data. -/
structure Sol (K W : Type) where
  T : K
  action : K
  data : W

/-- What the scans ask for. -/
structure Env (K W : Type) where
  /-- `Tm`, bounce_solution.cpp:36 (`phase_pair.T_low`) -/
  tm : K
  /-- `Tc`, bounce_solution.cpp:35 (`phase_pair.crit_temp`) -/
  tc : K
  /-- `NumberOfInitialScanTemperatures` -/
  n : Nat
  /-- not `true_phase.Get(T).potential >= false_phase.Get(T).potential` -/
  viable : K → Bool
  /-- action and path data when starting from the straight path -/
  straight : K → Flt K × W
  /-- action and path data when starting from the warped path of an earlier solution -/
  warped : W → K → Flt K × W

variable {K W : Type} [Field K] [LinearOrder K]

/-- `Action / T > 0`; a positive action divided by zero is plus infinity. -/
def posRatio (a T : K) : Bool := if T = 0 then decide (0 < a) else decide (0 < a / T)

/-- The insertion at `std::upper_bound`, bounce_solution.cpp:173-179 and 233-239.  The model scans
from the front; on the sorted lists that occur this is what the binary search finds. -/
def insertSol (s : Sol K W) : List (Sol K W) → List (Sol K W)
  | [] => [s]
  | x :: r => if s.T < x.T then s :: x :: r else x :: insertSol s r

/-- `if (bc.Action / T > 0) SolutionList.insert(...)`, bounce_solution.cpp:171-180, 231-240 and
257-260. -/
def addSol (l : List (Sol K W)) (t : K) (r : Flt K × W) : List (Sol K W) :=
  match r.1 with
  | .fin a => if posRatio a t then insertSol ⟨t, a, r.2⟩ l else l
  | .nan => l

/-- `std::min_element` with the distance to `T`, bounce_solution.cpp:195-199. -/
def nearestSol (t : K) (x : Sol K W) (r : List (Sol K W)) : Sol K W :=
  r.foldl (fun b s => if |t - s.T| < |t - b.T| then s else b) x

/-- `CalculateActionAt`, bounce_solution.cpp:187-262. -/
def calcAt (e : Env K W) (l : List (Sol K W)) (t : K) (smart : Bool) : List (Sol K W) :=
  if t < e.tm ∨ t > e.tc then l
  else
    match l with
    | [] => addSol [] t (e.straight t)
    | x :: r =>
      let n := nearestSol t x r
      if |n.T - t| < 1 / 1000 then x :: r
      else if e.viable t = false then x :: r
      else addSol (x :: r) t (if smart then e.warped n.data t else e.straight t)

/-- `dT`, bounce_solution.cpp:127. -/
def Env.dT (e : Env K W) : K := (e.tc - e.tm) / e.n

/-- One calculation of the initial scan, bounce_solution.cpp:149-169: the straight path as long as the
last action is negative (it starts at -1), otherwise the warped path of the last calculation. -/
def scanCalc (e : Env K W) (t : K) (last : Flt K × Option W) : Flt K × W :=
  match last.1.lt (.fin 0), last.2 with
  | false, some w => e.warped w t
  | _, _ => e.straight t

/-- `bc.Action / T < 40 and bc.Action > 0`, bounce_solution.cpp:182. -/
def lowEnough (r : Flt K × W) (t : K) : Bool :=
  match r.1 with
  | .fin a => decide (a / t < 40) && decide (0 < a)
  | .nan => false

/-- The loop of `GWInitialScan`, bounce_solution.cpp:118-185.  `fuel` bounds the number of rounds. -/
def initLoop (e : Env K W) : Nat → K → Flt K × Option W → List (Sol K W) → Option (List (Sol K W))
  | 0, _, _, _ => none
  | fuel + 1, t, last, l =>
    if t ≥ e.tm + e.dT then
      if e.viable t = false then initLoop e fuel (t - e.dT) last l
      else
        let r := scanCalc e t last
        let l := addSol l t r
        if lowEnough r t then some l else initLoop e fuel (t - e.dT) (r.1, some r.2) l
    else some l

/-- `GWInitialScan` up to the secondary scan, bounce_solution.cpp:118-183.  For zero scan temperatures
`dT` is infinite and the loop is not entered (for `Tm < Tc`). -/
def initialScan (e : Env K W) (fuel : Nat) : Option (List (Sol K W)) :=
  if e.n = 0 then some [] else initLoop e fuel (e.tc - e.dT) (.fin (-1), none) []

/-- `Action / T` of a solution. -/
def Sol.ratio (s : Sol K W) : K := s.action / s.T

/-- The temperature at which the straight line through `(t1, s1)` and `(t2, s2)` reaches `goal`,
bounce_solution.cpp:355 and 393. -/
def lineAt (t1 s1 t2 s2 goal : K) : K := ((s1 - goal) * t2 - (s2 - goal) * t1) / (s1 - s2)

/-- The last two entries, `SolutionList[size - 2]` and `SolutionList[size - 1]`. -/
def lastTwo {α : Type} (l : List α) : Outcome (α × α) :=
  match l.reverse with
  | b :: a :: _ => ok (a, b)
  | _ => ub .outOfBounds

/-- The first two entries. -/
def firstTwo {α : Type} (l : List α) : Outcome (α × α) :=
  match l with
  | a :: b :: _ => ok (a, b)
  | _ => ub .outOfBounds

/-- What one round of a scan towards higher or lower action does. -/
inductive Round (K : Type) where
  /-- leave the loop -/
  | stop
  /-- calculate at this temperature, the loop counter is not advanced -/
  | flat (t : K)
  /-- calculate at this temperature, and again from the straight path if that gave nothing -/
  | goal (t : K)

/-- The decision of one round of `GWScanTowardsHighAction`, bounce_solution.cpp:338-375.  For equal
ratios the division yields minus infinity, which is below `t2`. -/
def highRound (e : Env K W) (i : Int) (a b : Sol K W) : Round K :=
  if ¬((i : K) ≤ 1 + (200 - b.ratio) / 10) then .stop
  else if b.ratio > 200 then .stop
  else
    let t := lineAt a.T a.ratio b.T b.ratio (b.ratio + 10)
    if a.ratio = b.ratio ∨ t < b.T then .stop
    else if t > e.tc then
      if b.T + (b.T - a.T) > e.tc then .stop else .flat (b.T + (b.T - a.T))
    else .goal t

/-- The decision of one round of `GWScanTowardsLowAction`, bounce_solution.cpp:377-413.  For equal
ratios the division yields plus infinity, which is above `t1`. -/
def lowRound (e : Env K W) (i : Int) (a b : Sol K W) : Round K :=
  if ¬((i : K) ≤ 1 + (a.ratio - 50) / 10) then .stop
  else if a.ratio < 50 then .stop
  else
    let t := lineAt a.T a.ratio b.T b.ratio (a.ratio - 10)
    if a.ratio = b.ratio ∨ t > a.T then .stop
    else if t < e.tm then
      if a.T - (b.T - a.T) < e.tm then .stop else .flat (a.T - (b.T - a.T))
    else .goal t

/-- `CalculateActionAt(T)` and, when that adds nothing, `CalculateActionAt(T, false)`. -/
def tryBoth (e : Env K W) (l : List (Sol K W)) (t : K) : List (Sol K W) :=
  let l1 := calcAt e l t true
  if l1.length = l.length then calcAt e l1 t false else l1

/-- The loops of `GWScanTowardsHighAction` and `GWScanTowardsLowAction`, bounce_solution.cpp:338-413:
`pair` selects the two entries, `round` decides. -/
def scanLoop (e : Env K W) (pair : List (Sol K W) → Outcome (Sol K W × Sol K W))
    (round : Int → Sol K W → Sol K W → Round K) :
    Nat → Int → List (Sol K W) → Option (Outcome (List (Sol K W)))
  | 0, _, _ => none
  | fuel + 1, i, l =>
    match pair l with
    | .ok (a, b) =>
      match round i a b with
      | .stop => some (ok l)
      | .flat t =>
        let l1 := calcAt e l t true
        if l1.length = l.length then some (ok l1) else scanLoop e pair round fuel i l1
      | .goal t =>
        let l1 := tryBoth e l t
        if l1.length = l.length then some (ok l1) else scanLoop e pair round fuel (i + 1) l1
    | .err x => some (err x)
    | .ub x => some (ub x)

/-- `GWScanTowardsHighAction`, bounce_solution.cpp:338-375. -/
def scanHigh (e : Env K W) (fuel : Nat) (l : List (Sol K W)) : Option (Outcome (List (Sol K W))) :=
  scanLoop e lastTwo (highRound e) fuel 0 l

/-- `GWScanTowardsLowAction`, bounce_solution.cpp:377-413. -/
def scanLow (e : Env K W) (fuel : Nat) (l : List (Sol K W)) : Option (Outcome (List (Sol K W))) :=
  scanLoop e firstTwo (lowRound e) fuel 0 l

section Floor

variable [FloorRing K]

/-- The new temperatures between two neighbouring solutions, bounce_solution.cpp:300-322.  (The
counter is a 32-bit `int` in the code.) -/
def between (a b : Sol K W) : List K :=
  if a.ratio > 200 then []
  else if b.ratio < 50 then []
  else
    let num : Int := ⌈(b.ratio - a.ratio) / 20⌉
    let dT := (b.T - a.T) / num
    ((List.range (num.toNat - 1)).map fun i : Nat => a.T + ((i : K) + 1) * dT).filter fun t =>
      let p := (t - a.T) * (b.ratio - a.ratio) / (b.T - a.T) + a.ratio
      decide (p < 400) && decide (p > 0)

/-- `nextTList`, bounce_solution.cpp:296-323. -/
def nextTemps : List (Sol K W) → List K
  | a :: b :: r => between a b ++ nextTemps (b :: r)
  | _ => []

/-- One round of the refinement, bounce_solution.cpp:296-328. -/
def refineOnce (e : Env K W) (l : List (Sol K W)) : List (Sol K W) :=
  (nextTemps l).foldl (fun l t => calcAt e l t true) l

/-- The two rounds of the refinement, bounce_solution.cpp:292-332: the second one only if the first
added something. -/
def refine (e : Env K W) (l : List (Sol K W)) : List (Sol K W) :=
  let l1 := refineOnce e l
  if l1.length = l.length then l1 else refineOnce e l1

end Floor

/-- What is left behind: the solutions, `status_bounce_sol` and the points of the spline. -/
structure State (K W : Type) where
  sols : List (Sol K W)
  status : GWStatus
  spline : List (K × K)

/-- `SetBounceSol`, bounce_solution.cpp:415-458 (without the plot): the spline is only set from at least
four solutions. -/
def setBounceSol (s : State K W) : State K W :=
  if s.sols.length < 4 then
    { s with
      status := .failure }
  else
    { s with
      spline := s.sols.map fun x => (x.T, x.action)
      status := .success }

/-- Run `f` on the result of a loop that may not end and may have undefined behaviour. -/
def andThen {α β : Type} (x : Option (Outcome α)) (f : α → Option (Outcome β)) : Option (Outcome β) :=
  match x with
  | some (.ok a) => f a
  | some (.err e) => some (err e)
  | some (.ub u) => some (ub u)
  | none => none

section Floor

variable [FloorRing K]

/-- `GWSecondaryScan` from at least two solutions on, bounce_solution.cpp:289-336. -/
def fullScan (e : Env K W) (fuel : Nat) (s : State K W) : Option (Outcome (State K W)) :=
  andThen (scanLow e fuel s.sols) fun l =>
  andThen (scanHigh e fuel l) fun l =>
  andThen (scanLow e fuel (refine e l)) fun l =>
  andThen (scanHigh e fuel l) fun l =>
  some (ok (setBounceSol { s with sols := l }))

/-- `GWSecondaryScan`, bounce_solution.cpp:264-336. -/
def secondaryScan (e : Env K W) (fuel : Nat) (s : State K W) : Option (Outcome (State K W)) :=
  match s.sols with
  | [] => some (ok { s with status := .failure })
  | [x] =>
    let l := calcAt e [x] (x.T - (x.T - e.tm) / 10) true
    if l.length = 1 then some (ok (setBounceSol { s with sols := l }))
    else fullScan e fuel { s with sols := l }
  | _ => fullScan e fuel s

/-- The constructor, bounce_solution.cpp:21-52, as far as the actions are concerned: nothing is
calculated unless the critical temperature is positive. -/
def construct (e : Env K W) (fuel : Nat) : Option (Outcome (State K W)) :=
  if e.tc > 0 then
    match initialScan e fuel with
    | some l => secondaryScan e fuel ⟨l, .notSet, []⟩
    | none => none
  else some (ok ⟨[], .notSet, []⟩)

end Floor

end Verif.Bounce
