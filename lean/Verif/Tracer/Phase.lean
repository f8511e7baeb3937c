import Verif.Tracer.Geometry

/-!
# Model of `struct Phase` and of the part of `class Vacuum` that combines phases

`P` is the type of points, `K` an ordered field (no rounding, no NaN).  The tracker
(`MinimumTracer::TrackPhase`, modelled in `Track.lean`) is a parameter
`track : P → K → K → List (Minimum P K)`: the minima found when tracking a point from one temperature
to another.
-/

namespace Verif.Tracer

open Outcome

/-- `struct Minimum`, minimum_tracer.h:252-261 (`is_glob_min` is not used by the code modelled here). -/
structure Minimum (P K : Type) where
  point : P
  temp : K
  potential : K
  edge : Int := 0
  deriving DecidableEq, Repr

/-- `struct Phase`, minimum_tracer.h:605-630.  Temperatures start as 0, the id as 0. -/
structure Phase (P K : Type) where
  id : Nat
  tLow : K
  tHigh : K
  mins : List (Minimum P K)
  deriving DecidableEq, Repr

section

variable {P K : Type} [Field K] [LinearOrder K]

/-- The default constructor and the member initialisers, minimum_tracer.h:610-620. -/
def Phase.empty : Phase P K := ⟨0, 0, 0, []⟩

/-- Change the last element of a list (`back() = ...`). -/
def mapLast {α : Type} (f : α → α) : List α → List α
  | [] => []
  | [a] => [f a]
  | a :: b :: l => a :: mapLast f (b :: l)

/-- The loop of `Phase::Add` that looks for two neighbours between which the temperature lies,
minimum_tracer.cpp:1744-1752. -/
def insertMid (m : Minimum P K) : List (Minimum P K) → Option (List (Minimum P K))
  | a :: b :: l =>
    if a.temp < m.temp ∧ m.temp < b.temp then some (a :: m :: b :: l)
    else (insertMid m (b :: l)).map (a :: ·)
  | _ => none

/-- `Phase::Add`, minimum_tracer.cpp:1719-1765. -/
def Phase.add (p : Phase P K) (m : Minimum P K) : Phase P K :=
  if p.mins.any (fun x => decide (m.temp = x.temp)) then p
  else match p.mins with
    | [] => { p with mins := [m] }
    | a :: l =>
      if m.temp < a.temp then
        { p with mins := { m with edge := -1 } :: { a with edge := 0 } :: l, tLow := m.temp }
      else match insertMid m (a :: l) with
        | some l' => { p with mins := l' }
        | none =>
          { p with
            mins := mapLast (fun x => { x with edge := 0 }) (a :: l) ++ [{ m with edge := 1 }]
            tHigh := m.temp }

/-- The loops `for (auto Min : MinimumList) Add(Min)`. -/
def Phase.addAll (p : Phase P K) (l : List (Minimum P K)) : Phase P K := l.foldl Phase.add p

/-- The common end of the constructors, minimum_tracer.cpp:1496-1503 and similarly in the others: add the
minima and, unless there are none, set the temperature range from the first and the last. -/
def Phase.ofMinima (l : List (Minimum P K)) : Phase P K :=
  let p := Phase.empty.addAll l
  match p.mins.head?, p.mins.getLast? with
  | some a, some b => { p with tLow := a.temp, tHigh := b.temp }
  | _, _ => p

/-- `Phase(phase_start, initialT, finalT, ...)`, minimum_tracer.cpp:1478-1503 and 1539-1563.  `prep` is the
composition of `ReduceVEV` and `ConvertToNonFlatDirections`. -/
def Phase.oneWay (track : P → K → K → List (Minimum P K)) (prep : P → P) (start : P)
    (initialT finalT : K) : Phase P K :=
  Phase.ofMinima (track (prep start) initialT finalT)

/-- `Phase(initialT, phase_start, LowT, HighT, ...)`, minimum_tracer.cpp:1505-1538 and 1565-1596. -/
def Phase.bothWays (track : P → K → K → List (Minimum P K)) (prep : P → P) (start : P)
    (initialT lowT highT : K) : Phase P K :=
  Phase.ofMinima (track (prep start) initialT highT ++ track (prep start) initialT lowT)

/-- `Phase(initialT, LowT, HighT, MinTracer)`, minimum_tracer.cpp:1601-1665.  `glob` is the global minimum
as a function of the temperature, already reduced and without flat directions. -/
def Phase.fromGlobal (track : P → K → K → List (Minimum P K)) (glob : K → P)
    (initialT lowT highT : K) : Outcome (Phase P K) :=
  let start := glob initialT
  if initialT = lowT then ok (Phase.ofMinima (track start initialT highT))
  else if initialT = highT then ok (Phase.ofMinima (track start initialT lowT))
  else if (initialT < highT ∧ initialT > lowT) ∨ (initialT < lowT ∧ initialT > highT) then
    ok (Phase.ofMinima (track start initialT highT ++ track start initialT lowT))
  else err .invalidArgument

/-- The search for the closest minimum in `Phase::Get`, minimum_tracer.cpp:1676-1687; `none` means that
`bestGuess` is still uninitialised. -/
def nearest (t : K) (l : List (Minimum P K)) : Option (Minimum P K) × K :=
  l.foldl (fun (best : Option (Minimum P K) × K) m =>
    if |t - m.temp| < best.2 then (some m, |t - m.temp|) else best) (none, 10 ^ 100)

/-- `Phase::Get`, minimum_tracer.cpp:1667-1717: the minimum and the phase afterwards.  The tracker is
called with the step `T - bestGuess.temp` and without protection. -/
def Phase.get (track : P → K → K → List (Minimum P K)) (p : Phase P K) (t : K) :
    Outcome (Minimum P K × Phase P K) :=
  match nearest t p.mins with
  | (none, _) => ub .uninitialised
  | (some best, e) =>
    if e = 0 then ok (best, p)
    else
      let l := track best.point best.temp t
      match l.getLast? with
      | some m => ok (m, p.addAll l)
      | none => ok (best, p)

/-! ## Pairs of coexisting phases -/

/-- `struct CoexPhases`, minimum_tracer.h (members set by the constructor, minimum_tracer.cpp:1276-1289). -/
structure Coex (P K : Type) where
  pairId : Nat
  falsePhase : Phase P K
  truePhase : Phase P K
  tLow : K
  tHigh : K

/-- The condition in `setCoexPhases`, minimum_tracer.cpp:2540-2541. -/
def overlaps (f t : Phase P K) : Bool := decide (t.tHigh ≥ f.tLow) && decide (t.tLow ≤ f.tHigh)

/-- The pairs of a list, the first component before the second, in the order of the two loops. -/
def orderedPairs {α : Type} : List α → List (α × α)
  | [] => []
  | a :: l => l.map (fun b => (a, b)) ++ orderedPairs l

/-- `Vacuum::setCoexPhases`, minimum_tracer.cpp:2527-2562, without the critical temperature, which each
pair computes on its own (see `Crit.lean`). -/
def setCoexPhases (phases : List (Phase P K)) : List (Coex P K) :=
  ((orderedPairs phases).filter fun ft => overlaps ft.1 ft.2).zipIdx.map fun x =>
    ⟨x.2, x.1.1, x.1.2, max x.1.1.tLow x.1.2.tLow, min x.1.1.tHigh x.1.2.tHigh⟩

end

end Verif.Tracer
