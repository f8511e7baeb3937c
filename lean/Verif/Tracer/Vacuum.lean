import Verif.Tracer.Phase
import Mathlib.Data.List.Sort

/-!
# Model of `class Vacuum`: registering phases and checking the coverage in temperature

`track` is `MinimumTracer::TrackPhase` (see `Track.lean`), `dist` the Euclidean distance of two points.
-/

namespace Verif.Tracer

open Outcome

section

variable {P K : Type} [Field K] [LinearOrder K]

/-- The largest distance of two phases at the eleven inner temperatures of their common range, and the two
phases after the look-ups, minimum_tracer.cpp:2727-2744. -/
def maxDistance (track : P → K → K → List (Minimum P K)) (dist : P → P → K) (lo hi : K) :
    List Nat → K → Phase P K → Phase P K → Outcome (K × Phase P K × Phase P K)
  | [], d, ex, ph => ok (d, ex, ph)
  | n :: ns, d, ex, ph => do
    let (m1, ex) ← ex.get track (lo + (n : K) / 12 * (hi - lo))
    let (m2, ph) ← ph.get track (lo + (n : K) / 12 * (hi - lo))
    maxDistance track dist lo hi ns (max d (dist m1.point m2.point)) ex ph

/-- The loop of `addPhase` over the existing phases, minimum_tracer.cpp:2725-2766: the phases afterwards,
the new phase after the look-ups, and whether it was merged into an existing one. -/
def mergeInto (track : P → K → K → List (Minimum P K)) (dist : P → P → K) :
    List (Phase P K) → Phase P K → Outcome (List (Phase P K) × Phase P K × Bool)
  | [], ph => ok ([], ph, false)
  | ex :: rest, ph =>
    let lo := max ex.tLow ph.tLow
    let hi := min ex.tHigh ph.tHigh
    if lo ≥ hi then do
      let (l, ph, b) ← mergeInto track dist rest ph
      ok (ex :: l, ph, b)
    else do
      let (d, ex, ph) ← maxDistance track dist lo hi (List.range' 1 11) 0 ex ph
      if d < 1 then ok (ex.addAll ph.mins :: rest, ph, true)
      else do
        let (l, ph, b) ← mergeInto track dist rest ph
        ok (ex :: l, ph, b)

/-- Marking the first and the last minimum, minimum_tracer.cpp:2768-2771. -/
def Phase.setEdges (p : Phase P K) : Phase P K :=
  match p.mins with
  | [] => p
  | a :: l => { p with mins := mapLast (fun x => { x with edge := 1 }) ({ a with edge := -1 } :: l) }

/-- `addPhase` after the test of the number of minima, minimum_tracer.cpp:2725-2774. -/
def register (track : P → K → K → List (Minimum P K)) (dist : P → P → K) (phases : List (Phase P K))
    (ph : Phase P K) : Outcome (List (Phase P K)) := do
  let (l, ph, merged) ← mergeInto track dist phases ph
  ok (if merged then l else l ++ [ph.setEdges])

/-- `Vacuum::addPhase`, minimum_tracer.cpp:2684-2774: the list of phases afterwards.  `track3` is the
tracker called with a third of the distance of the two temperatures as step. -/
def addPhase (track track3 : P → K → K → List (Minimum P K)) (dist : P → P → K)
    (phases : List (Phase P K)) (ph : Phase P K) : Outcome (List (Phase P K)) :=
  match ph.mins with
  | [] => ok phases
  | [_] => ok phases
  | [a, b] =>
    let l := track3 a.point a.temp b.temp
    if l.length > 0 then register track dist phases (ph.addAll l) else ok phases
  | _ => register track dist phases ph

/-- `Vacuum::MinimumFoundAlready`, minimum_tracer.cpp:2776-2798: the index of the phase (`none` for -1)
and the phases after the look-ups. -/
def minimumFoundAlready (track : P → K → K → List (Minimum P K)) (dist : P → P → K) (nVEV : K)
    (m : Minimum P K) : List (Phase P K) → Outcome (Option Nat × List (Phase P K))
  | [] => ok (none, [])
  | p :: rest =>
    if m.temp > p.tHigh ∨ m.temp < p.tLow then do
      let (r, rest) ← minimumFoundAlready track dist nVEV m rest
      ok (r.map (· + 1), p :: rest)
    else do
      let (x, p) ← p.get track m.temp
      if dist m.point x.point / nVEV < 1 then ok (some 0, p :: rest)
      else do
        let (r, rest) ← minimumFoundAlready track dist nVEV m rest
        ok (r.map (· + 1), p :: rest)

/-! ## The coverage in temperature -/

/-- The edges of all phases, minimum_tracer.cpp:2574-2578.  (`front()` of an empty phase would be undefined
behaviour; `addPhase` stores none, see `C51_registered`.) -/
def edges (phases : List (Phase P K)) : List (K × Int) :=
  phases.flatMap fun p => match p.mins.head?, p.mins.getLast? with
    | some a, some b => [(a.temp, a.edge), (b.temp, b.edge)]
    | _, _ => []

/-- `std::unique` after the element `a`: of neighbouring equal elements the first is kept. -/
def uniqFrom (a : K) : List K → List K
  | [] => [a]
  | b :: l => if a = b then uniqFrom a l else a :: uniqFrom b l

/-- `std::unique`, minimum_tracer.cpp:2587. -/
def uniq : List K → List K
  | [] => []
  | a :: l => uniqFrom a l

/-- The temperatures at which some phase begins or ends, descending, minimum_tracer.cpp:2580-2587
(`std::sort` on numbers: any correct sorting gives the same list). -/
def edgeTemps (es : List (K × Int)) : List K :=
  uniq ((es.map (·.1)).insertionSort (· ≥ ·))

/-- The running sum of the edges, minimum_tracer.cpp:2589-2603. -/
def runningSum (es : List (K × Int)) : List K → Int → List (K × Int)
  | [], _ => []
  | t :: ts, acc =>
    let acc := acc + ((es.filter fun e => decide (e.1 = t)).map (·.2)).sum
    (t, acc) :: runningSum es ts acc

/-- The intervals between neighbouring temperatures: upper end, number of phases, lower end,
minimum_tracer.cpp:2617-2628. -/
def intervals (phases : List (Phase P K)) : List (K × Int × K) :=
  let r := runningSum (edges phases) (edgeTemps (edges phases)) 0
  (r.zip (r.map (·.1)).tail).map fun x => (x.1.1, x.1.2, x.2)

/-- The members of `Vacuum` used here. -/
structure VState (P K : Type) where
  phases : List (Phase P K)
  vac : Tracing
  coex : CoexPair

/-- The loop over the intervals in `setCoexRegion`, minimum_tracer.cpp:2617-2668.  `patch` traces the global
minimum at a temperature and adds the phase; it returns the phases and the number of minima found.  `again`
is the recursive call. -/
def regionLoop (patch : List (Phase P K) → K → List (Phase P K) × Nat) (mode : Int)
    (again : VState P K → Option (VState P K)) :
    List (K × Int × K) → VState P K → Option (VState P K)
  | [], s => some s
  | (th, n, tl) :: rest, s =>
    if n > 1 then regionLoop patch mode again rest { s with coex := .success }
    else if n ≤ 0 then
      if tl + 1 / 10 ^ 6 < th ∧ mode ≠ 0 then
        let r := patch s.phases ((th + tl) / 2)
        if r.2 > 2 then
          (again { s with phases := r.1, vac := .success }).bind (regionLoop patch mode again rest)
        else regionLoop patch mode again rest { s with phases := r.1, vac := .noCoverage }
      else regionLoop patch mode again rest { s with vac := .noCoverage }
    else regionLoop patch mode again rest s

/-- `Vacuum::setCoexRegion`, minimum_tracer.cpp:2564-2682. -/
def setCoexRegion (patch : List (Phase P K) → K → List (Phase P K) × Nat) (mode : Int) :
    Nat → VState P K → Option (VState P K)
  | 0, _ => none
  | fuel + 1, s =>
    if s.phases.length > 0 then
      let is := intervals s.phases
      (regionLoop patch mode (setCoexRegion patch mode fuel) is s).map fun s' =>
        if is.all (fun i => decide (i.2.1 > 0)) ∧ s'.vac = .noCoverage then
          { s' with vac := .noGlobMinCoverage }
        else s'
    else some s

end

end Verif.Tracer
