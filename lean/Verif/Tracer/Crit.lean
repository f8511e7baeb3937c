import Verif.Tracer.Geometry

/-!
# Model of `CoexPhases::CalculateTc`

The difference of the potentials of the two phases is read through `Phase::Get`, which may extend the
phases.  It is therefore modelled as an evaluation `ev : σ → K → K × σ` that returns a value and a new
state; a mere function of the temperature is the special case of a state that never changes (`pureEv`).

Loops without an obvious bound carry fuel; `none` means that the fuel did not suffice.
-/

namespace Verif.Tracer

variable {σ K : Type} [Field K] [LinearOrder K]

/-- The temperatures of the plotting loop, minimum_tracer.cpp:1310. -/
def plotTemps : Nat → K → K → K → Option (List K)
  | 0, _, _, _ => none
  | fuel + 1, lo, hi, t =>
    if t ≤ hi then (plotTemps fuel lo hi (t + (hi - lo) / 100)).map (t :: ·) else some []

/-- `p(deltaV(T_high)) and q(deltaV(T_low))` with short-circuit evaluation. -/
def testEnds (ev : σ → K → K × σ) (lo hi : K) (p q : K → Bool) (s : σ) : Bool × σ :=
  let a := ev s hi
  if p a.1 then
    let b := ev a.2 lo
    (q b.1, b.2)
  else (false, a.2)

/-- The binary search, minimum_tracer.cpp:1347-1361; returns `binaryMiddleT`. -/
def bisect (ev : σ → K → K × σ) : Nat → K → K → K → σ → Option (K × σ)
  | 0, _, _, _, _ => none
  | fuel + 1, lo, hi, mid, s =>
    if |hi / lo - 1| > 1 / 10 ^ 10 then
      let m := (hi + lo) / 2
      let d := ev s m
      if d.1 > 0 then bisect ev fuel lo m m d.2 else bisect ev fuel m hi m d.2
    else some (mid, s)

/-- `CoexPhases::CalculateTc`, minimum_tracer.cpp:1291-1378: status and temperature. -/
def calculateTc (ev : σ → K → K × σ) (fuel : Nat) (lo hi : K) (s : σ) : Option ((Crit × K) × σ) :=
  match plotTemps fuel lo hi lo with
  | none => none
  | some ts =>
    let s := ts.foldl (fun s t => (ev s t).2) s
    let r1 := testEnds ev lo hi (fun x => decide (x > 0)) (fun x => decide (x > 0)) s
    if r1.1 then some ((.falseLower, -1), r1.2)
    else
      let r2 := testEnds ev lo hi (fun x => decide (x < 0)) (fun x => decide (x < 0)) r1.2
      if r2.1 then some ((.trueLower, hi), r2.2)
      else
        let r3 := testEnds ev lo hi (fun x => decide (x > 0)) (fun x => decide (x < 0)) r2.2
        if r3.1 then (bisect ev fuel lo hi lo r3.2).map fun r => ((.success, r.1), r.2)
        else some ((.failure, -2), r3.2)

/-- A difference of potentials that depends on the temperature only. -/
def pureEv (dV : K → K) : Unit → K → K × Unit := fun _ t => (dV t, ())

end Verif.Tracer
