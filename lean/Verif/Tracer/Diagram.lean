import Verif.Ascii.Model
import Verif.Models.Model

/-!
# Model of the diagram of the phases and of the change of coordinates (`minimum_tracer.cpp`)

The lines and the curves of `Vacuum::PrintPhasesDiagram`; how they are drawn is the model of the
plotter.  What `Phase::Get` delivers is a parameter.
-/

namespace Verif.Tracer.Diagram

open Outcome

/-- `MinimumTracer::ConvertToVEVDim`, minimum_tracer.cpp:1053-1065. -/
def convertToVEVDim {K : Type} (order : List Nat) (point : List K) : Outcome (List K) :=
  order.mapM (at' point)

section

variable {K : Type} [Field K] [LinearOrder K] [FloorRing K]

/-- `nBefore`, `nPhase` and `nAfter`, minimum_tracer.cpp:2210-2214, for a phase from `a` to `b` in a diagram from
`low` to `high`. -/
def cells (size : ℤ) (low high a b : K) : ℤ × ℤ × ℤ :=
  let before := ⌊(size : K) * (a - low) / (high - low)⌋
  let after := ⌊(size : K) * (high - b) / (high - low)⌋
  (before, size - before - after, after)

/-- `std::string(n, c)`; a negative number becomes a length beyond the maximum, for which
`std::length_error` is thrown. -/
def fill (n : ℤ) (c : Char) : Outcome (List Char) :=
  if n < 0 then err .runtime else ok (List.replicate n.toNat c)

/-- The bar of a phase, minimum_tracer.cpp:2247-2248. -/
def bar (size : ℤ) (low high a b : K) : Outcome (List Char) := do
  let n := cells size low high a b
  let x ← fill n.1 ' '
  let y ← fill n.2.1 '.'
  let z ← fill n.2.2 ' '
  ok (x ++ y ++ z)

/-- The temperatures, minimum_tracer.cpp:2219-2223; `0 / 0.` is not a number. -/
def temperatures (nPhase : ℤ) (a b : K) : List (Flt K) :=
  (List.range (nPhase + 1).toNat).map fun i : Nat =>
    if nPhase = 0 then .nan else .fin (a + (i : K) / (nPhase : K) * (b - a))

/-- `markers`, minimum_tracer.cpp:2202: the array contains the zero at the end of the string. -/
def markers : List Char := ['.', '*', 'o', 'x', '-', 'c', 's', Char.ofNat 0]

/-- `markers[it % sizeof(markers)]`, minimum_tracer.cpp:2239. -/
def marker (it : Nat) : Char := markers.getD (it % markers.length) ' '

/-- The curves of the field `f`, minimum_tracer.cpp:2208-2239: one for each phase. -/
def curves (size : ℤ) (low high : K) (get : Nat → Flt K → Nat → Flt K) (f : Nat) (phases : List (K × K)) :
    Outcome (List (Ascii.Curve (Flt K))) :=
  (List.range phases.length).foldlM (fun cs it => do
    let p ← idx phases it
    let ts := temperatures (cells size low high p.1 p.2).2.1 p.1 p.2
    Ascii.addPlot cs ⟨ts, ts.map fun t => get it t f, "Phase ".toList ++ Nat.toDigits 10 it, marker it⟩) []

end

end Verif.Tracer.Diagram
