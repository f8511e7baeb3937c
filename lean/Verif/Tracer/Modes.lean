import Verif.Tracer.Vacuum

/-!
# Model of the tracing modes of `class Vacuum`

The loops and recursions carry fuel; `none` means that they have not ended.
-/

namespace Verif.Tracer

open Outcome

section

variable {P K : Type} [Field K] [LinearOrder K]

/-! ## The default mode -/

/-- What `MultiStepPTTracer` uses, for a state `σ` that contains the phases. -/
structure TracerEnv (σ K : Type) where
  tLow : K
  tHigh : K
  /-- `MinimumFoundAlready` for the global minimum at a temperature (look-ups change phases) -/
  found : σ → K → σ × Bool
  /-- tracing the global minimum at a temperature and adding the phase; the second component is
  `phase.T_low` -/
  trace : σ → K → σ × K
  /-- `HighTemperatureVEV` is set: `none` if it is already known (`MinimumFoundAlready`), else tracing it -/
  high : Option (σ → σ × Option K)
  /-- the search from below, minimum_tracer.cpp:2425-2467 -/
  bottom : σ → σ

/-- The attempt with `HighTemperatureVEV`, minimum_tracer.cpp:2470-2486. -/
def TracerEnv.tryHigh {σ : Type} (e : TracerEnv σ K) (s : σ) (t : K) : σ × Option K :=
  match e.high with
  | some high => if t = e.tHigh then high s else (s, none)
  | none => (s, none)

/-- `Vacuum::MultiStepPTTracer`, minimum_tracer.cpp:2423-2514.  The default of `deltaT` is 0
(minimum_tracer.h:866). -/
def tracer {σ : Type} (e : TracerEnv σ K) : Nat → σ → K → K → Option σ
  | 0, _, _, _ => none
  | fuel + 1, s, t, deltaT =>
    if t ≤ e.tLow then some (e.bottom s)
    else
      match e.tryHigh s t with
      | (s, some lo) => tracer e fuel s lo (-1)
      | (s, none) =>
        match e.found s t with
        | (s, true) => tracer e fuel s (t + deltaT) 0
        | (s, false) =>
          let r := e.trace s t
          tracer e fuel r.1 r.2 (-1)

/-! ## Overlaps -/

/-- `Vacuum::DoPhasesOverlap`, minimum_tracer.cpp:1848-1861. -/
def doPhasesOverlap (new old : Phase P K) : Bool :=
  decide (new.tHigh ≥ old.tLow) && decide (new.tLow ≤ old.tHigh)

/-- `Vacuum::DoGlobMinOverlap`, minimum_tracer.cpp:1863-1904; `glob` is `IsGlobMin`.  The phases are copies,
so the look-ups change nothing. -/
def doGlobMinOverlap (track : P → K → K → List (Minimum P K)) (glob : Minimum P K → Bool)
    (new old : Phase P K) : Outcome Bool :=
  if new.mins.length > 1 ∧ old.mins.length > 1 then
    if new.tHigh ≥ old.tLow ∧ new.tLow ≤ old.tHigh then
      let lh := if new.tHigh ≥ old.tHigh then (old, new)
        else if new.tLow ≤ old.tLow then (new, old)
        else (Phase.empty, Phase.empty)
      do
        let (hi, _) ← lh.2.get track lh.1.tHigh
        let (lo, _) ← lh.1.get track lh.2.tLow
        ok (glob hi && glob lo)
    else ok false
  else ok true

/-! ## Mode 0 -/

/-- `Vacuum::MultiStepPTMode0`, minimum_tracer.cpp:1767-1846: the status afterwards.  (Which phases are
added is `if size > 1` each.) -/
def mode0 (globOverlap : Phase P K → Phase P K → Outcome Bool) (low high : Phase P K) (vac : Tracing) :
    Outcome Tracing :=
  if low.mins.length > 1 ∧ high.mins.length > 1 then
    if high.tLow < low.tHigh then do
      let b ← globOverlap low high
      ok (if b then vac else .noGlobMinCoverage)
    else ok .noCoverage
  else ok .noMinsAtBoundaries

/-! ## Mode 1 -/

/-- The variables of the loop in `MultiStepPTMode1`, minimum_tracer.cpp:1967-1978. -/
structure M1State (P K : Type) where
  tLowHigh : K
  tHighLow : K
  low : Phase P K
  high : Phase P K
  vac : Tracing
  added : List (Phase P K)

/-- Adding a phase of more than one minimum, minimum_tracer.cpp:1986-1989. -/
def addIf (l : List (Phase P K)) (p : Phase P K) : List (Phase P K) :=
  if p.mins.length > 1 then l ++ [p] else l

/-- The loop of `MultiStepPTMode1`, minimum_tracer.cpp:1980-2073; `mk` traces the global minimum at a
temperature over the whole range. -/
def mode1Loop (mk : K → Outcome (Phase P K)) (globOverlap : Phase P K → Phase P K → Outcome Bool) :
    Nat → M1State P K → Option (Outcome (M1State P K))
  | 0, _ => none
  | fuel + 1, s =>
    match mk s.tHighLow, mk s.tLowHigh with
    | ok l, ok h =>
      let added := addIf (addIf s.added l) h
      if doPhasesOverlap s.low l && doPhasesOverlap s.high h then
        let s' : M1State P K := ⟨h.tLow, l.tHigh, l, h, s.vac, added⟩
        if doPhasesOverlap l h then
          match globOverlap s.low l with
          | err e => some (err e)
          | ub u => some (ub u)
          | ok false => some (ok { s' with vac := .noGlobMinCoverage })
          | ok true =>
            match globOverlap s.high h with
            | err e => some (err e)
            | ub u => some (ub u)
            | ok false => some (ok { s' with vac := .noGlobMinCoverage })
            | ok true =>
              match globOverlap l h with
              | err e => some (err e)
              | ub u => some (ub u)
              | ok b => some (ok { s' with vac := if b then s.vac else .noGlobMinCoverage })
        else mode1Loop mk globOverlap fuel s'
      else some (ok { s with vac := .noCoverage, added := added })
    | ok _, err e => some (err e)
    | ok _, ub u => some (ub u)
    | err e, _ => some (err e)
    | ub u, _ => some (ub u)

/-- `Vacuum::MultiStepPTMode1`, minimum_tracer.cpp:1906-2078: the status and the phases given to `addPhase`,
in this order. -/
def mode1 (mk : K → Outcome (Phase P K)) (globOverlap : Phase P K → Phase P K → Outcome Bool)
    (fuel : Nat) (low high : Phase P K) (vac : Tracing) : Option (Outcome (M1State P K)) :=
  let s : M1State P K := ⟨high.tLow - 1, low.tHigh + 1, low, high, vac, addIf (addIf [] low) high⟩
  if doPhasesOverlap low high then
    some (globOverlap low high >>= fun b => ok { s with vac := if b then vac else .noGlobMinCoverage })
  else mode1Loop mk globOverlap fuel s

/-! ## Mode 2 -/

/-- `Phase(initialT, phase_start, LowT, HighT, globMinEndT, ...)`, minimum_tracer.cpp:1505-1538: both
trackings write the same variable, the downward one last; `up` and `down` are the values they assign, if any,
`old` the value before. -/
def globEndBothWays (up down : Option K) (old : K) : K := (down.or up).getD old

/-- One side of a round of `MultiStepPTMode2`: the phase, what the upward and the downward tracking assign. -/
abbrev Side (P K : Type) := Phase P K × Option K × Option K

/-- The loop of `MultiStepPTMode2`, minimum_tracer.cpp:2120-2190: the phases given to `addPhase`. -/
def mode2Loop (tLow tHigh : K) (mk : K → Side P K) :
    Nat → K → K → List (Phase P K) → Option (List (Phase P K))
  | 0, _, _, _ => none
  | fuel + 1, a, b, added =>
    if a < b then
      let l := mk a
      let a1 := globEndBothWays l.2.1 l.2.2 a
      let lowOk := l.1.tLow < l.1.tHigh
      let added := if lowOk then added ++ [l.1] else added
      let a2 := if lowOk then a1 else if a1 + 1 < tHigh then a1 + 1 else a1
      let h := mk b
      let b1 := globEndBothWays h.2.1 h.2.2 b
      let highOk := h.1.tLow < h.1.tHigh
      let added := if highOk then added ++ [h.1] else added
      let b2 := if highOk then b1 else if b1 > tLow + 1 then b1 - 1 else b1
      mode2Loop tLow tHigh mk fuel a2 b2 added
    else some added

/-- `Vacuum::MultiStepPTMode2`, minimum_tracer.cpp:2080-2190.  `low` and `high` are the traced outer phases
with the value assigned to `T_low_newglob` and `T_high_newglob`, which start uninitialised. -/
def mode2 (tLow tHigh : K) (mk : K → Side P K) (fuel : Nat) (low high : Phase P K × Option K) :
    Outcome (Option (List (Phase P K))) :=
  match low.2, high.2 with
  | some a, some b =>
    ok (mode2Loop tLow tHigh mk fuel (if low.1.tHigh > a then a else a + 1)
      (if high.1.tLow < b then b else b - 1) (addIf (addIf [] low.1) high.1))
  | _, _ => ub .uninitialised

/-! ## The end of the constructor -/

/-- The phases are renumbered in their order, minimum_tracer.cpp:2394-2398. -/
def renumber (phases : List (Phase P K)) : List (Phase P K) :=
  phases.zipIdx.map fun x => { x.1 with id := x.2 }

/-- The end of the constructor of `Vacuum`, minimum_tracer.cpp:2376-2418: the state and the pairs.  `sort` is
`std::sort` with descending upper temperature, `region` is `setCoexRegion`. -/
def finishVacuum (sort : List (Phase P K) → List (Phase P K))
    (region : VState P K → Option (VState P K)) (mode : Int) (onlyTracing : Bool) (s : VState P K) :
    Option (VState P K × List (Coex P K)) :=
  let s : VState P K := if s.phases.length = 0 then { s with vac := .failure } else s
  if s.vac = .success ∨ (mode ≠ 0 ∧ s.vac = .noCoverage) then
    (region { s with phases := renumber (sort s.phases) }).map fun s =>
      (s, if s.coex = .success ∧ onlyTracing = false then setCoexPhases s.phases else [])
  else some (s, [])

end

end Verif.Tracer
