import Verif.Tracer.Modes
import Verif.Flt

/-!
# Model of the constructor of `class Vacuum` and of the search from below

`none` means that a mode does not end.
-/

namespace Verif.Tracer.Begin

open Outcome Verif.Tracer

section

variable {P K : Type} [Field K] [LinearOrder K]

/-- What the constructor uses. -/
structure Env (P K : Type) where
  tLow : K
  tHigh : K
  /-- the tracker, see `Phase.lean`, and the one with a third of the range as step -/
  track : P → K → K → List (Minimum P K)
  track3 : P → K → K → List (Minimum P K)
  dist : P → P → K
  nVEV : K
  /-- `ReduceVEV` followed by `ConvertToNonFlatDirections` -/
  prep : P → P
  /-- the global minimum at a temperature, already reduced -/
  glob : K → P
  /-- `EWSBVEV` of a point -/
  ewsb : P → Flt K
  /-- `get_vevTreeMin()` -/
  ew : P
  /-- the global minima found from the tree-level vacuum at `T_low` and from the origin at `T_high`,
  minimum_tracer.cpp:2293-2301 and 2319-2320 -/
  lowPoint : P
  highPoint : P
  /-- `HighTemperatureVEV`, if it is not empty -/
  highVEV : Option P
  /-- `SavedMinimaFromVEVSplitting` as the trackings so far have filled it -/
  saved : List (Phase P K) → List (Minimum P K)

/-- The searches that the constructor chooses from (`Modes.lean`). -/
structure Searches (P K : Type) where
  tracer : VState P K → Option (Outcome (VState P K))
  mode0 : P → P → VState P K → Option (Outcome (VState P K))
  mode1 : P → P → VState P K → Option (Outcome (VState P K))
  mode2 : P → P → VState P K → Option (Outcome (VState P K))

/-- A minimum is looked up; if no phase contains it, the given phase is added,
minimum_tracer.cpp:2358-2365 and 2374-2380. -/
def lookUp (e : Env P K) (m : Minimum P K) (ph : Phase P K) (phases : List (Phase P K)) :
    Outcome (List (Phase P K)) := do
  let r ← minimumFoundAlready e.track e.dist e.nVEV m phases
  match r.1 with
  | some _ => ok r.2
  | none => addPhase e.track e.track3 e.dist r.2 ph

/-- The equally spaced temperatures, minimum_tracer.cpp:2442-2445. -/
def grid (tLow tHigh : K) (num : Int) : List K :=
  (List.range num.toNat).map fun i => tLow + (tHigh - tLow) / ((num + 1 : Int) : K) * ((i + 1 : Nat) : K)

/-- The loop over these temperatures, minimum_tracer.cpp:2442-2466. -/
def gridLoop (e : Env P K) : List K → List (Phase P K) → Outcome (List (Phase P K))
  | [], phases => ok phases
  | t :: ts, phases => do
    let r ← minimumFoundAlready e.track e.dist e.nVEV ⟨e.glob t, t, 0, 0⟩ phases
    match r.1 with
    | some _ => gridLoop e ts r.2
    | none => do
      let ph ← Phase.fromGlobal e.track e.glob t e.tHigh e.tLow
      let l ← addPhase e.track e.track3 e.dist r.2 ph
      gridLoop e ts l

/-- The search from below, minimum_tracer.cpp:2427-2468. -/
def bottom (e : Env P K) (num : Int) (s : VState P K) : Outcome (VState P K) :=
  if Flt.gt (e.ewsb (e.glob e.tLow)) (.fin (10 ^ 10)) then ok { s with vac := .failure }
  else do
    let ph ← Phase.fromGlobal e.track e.glob e.tLow e.tLow e.tHigh
    let l ← addPhase e.track e.track3 e.dist s.phases ph
    let l ← gridLoop e (grid e.tLow e.tHigh num) l
    ok { s with phases := l }

/-- `a` and then `f` on its result, if it ends without an exception. -/
def andThen {α β : Type} (a : Option (Outcome α)) (f : α → Option (Outcome β)) : Option (Outcome β) :=
  match a with
  | none => none
  | some (err x) => some (err x)
  | some (ub x) => some (ub x)
  | some (ok x) => f x

/-- The choice of the search, minimum_tracer.cpp:2287-2352; the flag says that the constructor returns. -/
def search (e : Env P K) (r : Searches P K) (mode : Int) (s : VState P K) :
    Option (Outcome (VState P K × Bool)) :=
  if mode = -1 then andThen (r.tracer s) fun s => some (ok (s, false))
  else if mode ≥ 0 then
    if Flt.gt (e.ewsb e.lowPoint) (.fin (10 ^ 10)) then some (ok ({ s with vac := .failure }, true))
    else
      let high := e.highVEV.getD e.highPoint
      if mode = 0 then andThen (r.mode0 e.lowPoint high s) fun s => some (ok (s, false))
      else if mode = 1 then andThen (r.mode1 e.lowPoint high s) fun s => some (ok (s, false))
      else if mode = 2 then andThen (r.mode2 e.lowPoint high s) fun s => some (ok (s, false))
      else if mode = 3 then
        andThen (r.mode1 e.lowPoint high s) fun s =>
          if s.vac = .noGlobMinCoverage then
            andThen (r.mode2 e.lowPoint high { s with vac := .success }) fun s => some (ok (s, false))
          else some (ok (s, false))
      else some (ok (s, false))
  else some (ok (s, false))

/-- The loop over the minima saved while tracking, minimum_tracer.cpp:2372-2381. -/
def savedLoop (e : Env P K) : List (Minimum P K) → List (Phase P K) → Outcome (List (Phase P K))
  | [], phases => ok phases
  | m :: ms, phases => do
    let l ← lookUp e m (Phase.bothWays e.track e.prep m.point m.temp e.tLow e.tHigh) phases
    savedLoop e ms l

/-- The electroweak minimum and the minima saved while tracking, minimum_tracer.cpp:2354-2381. -/
def extras (e : Env P K) (s : VState P K) : Outcome (VState P K) := do
  let l ← lookUp e ⟨e.ew, 0, 0, 0⟩ (Phase.oneWay e.track e.prep e.ew e.tLow e.tHigh) s.phases
  let l ← savedLoop e (e.saved l) l
  ok { s with phases := l }

/-- `Vacuum::Vacuum`, minimum_tracer.cpp:2268-2421: the state and the pairs. -/
def construct (e : Env P K) (r : Searches P K) (sort : List (Phase P K) → List (Phase P K))
    (region : VState P K → Option (VState P K)) (mode : Int) (onlyTracing : Bool) :
    Option (Outcome (VState P K × List (Coex P K))) :=
  andThen (search e r mode ⟨[], .success, .noCoexPairs⟩) fun x =>
    if x.2 then some (ok (x.1, []))
    else andThen (some (extras e x.1)) fun s =>
      (finishVacuum sort region mode onlyTracing s).map ok

end

end Verif.Tracer.Begin
