import Verif.Tracer.Geometry

/-!
# Model of `MinimumTracer::FindFlatDirections`

`V` is the tree-level potential as a function of the vacuum expectation values, `n` their number.  The loops
run over valid indices only, so `at` never throws.
-/

namespace Verif.Tracer.Flat

open Verif.Tracer

variable {n : Nat} {K : Type} [Field K] [LinearOrder K]

/-- The members that `FindFlatDirections` sets, minimum_tracer.h:463-483, and the local variable `point`,
minimum_tracer.cpp:783. -/
structure State (n : Nat) (K : Type) where
  point : Vec n K
  nonFlat : Fin n → Int
  found : Bool
  d1 : List (Fin n)
  d2 : List (Fin n × Fin n)
  d3 : List (Fin n × Fin n × Fin n)

/-- The start, minimum_tracer.cpp:783-786 and minimum_tracer.h:463-483. -/
def State.init : State n K := ⟨fun _ => 1, fun _ => 1, false, [], [], []⟩

/-- `almost_the_same(res_1, res_2, 1e-8)` with the default `num_zero`, minimum_tracer.cpp:807. -/
def same (a b : K) : Bool := almostSame a b (1 / 10 ^ 8) (1 / 10 ^ 10)

/-- `point.at(i) = x; point.at(j) = y; point.at(k) = z`, minimum_tracer.cpp:797-799. -/
def set3 (p : Vec n K) (i j k : Fin n) (x y z : K) : Vec n K :=
  Function.update (Function.update (Function.update p i x) j y) k z

/-- `point.at(i) = x; point.at(j) = y`, minimum_tracer.cpp:861-862. -/
def set2 (p : Vec n K) (i j : Fin n) (x y : K) : Vec n K :=
  Function.update (Function.update p i x) j y

/-- The test of three directions, minimum_tracer.cpp:797-845: the point that the nested conditions leave
behind and whether all of them hold. -/
def probe3 (V : Vec n K → K) (p : Vec n K) (i j k : Fin n) : Vec n K × Bool :=
  let p1 := set3 p i j k 2 100 200
  let p2 := set3 p1 i j k 2 200 100
  if same (V p1) (V p2) then
    let p3 := set3 p2 i j k 100 2 200
    if same (V p3) (V p2) then
      let p4 := set3 p3 i j k 100 200 2
      if same (V p3) (V p4) then
        let p5 := set3 p4 i j k 200 2 100
        if same (V p5) (V p4) then
          let p6 := set3 p5 i j k 200 100 2
          (p6, same (V p5) (V p6))
        else (p5, false)
      else (p4, false)
    else (p3, false)
  else (p2, false)

/-- The body of the loop over three directions, minimum_tracer.cpp:797-849. -/
def step3 (V : Vec n K → K) (s : State n K) (t : Fin n × Fin n × Fin n) : State n K :=
  let r := probe3 V s.point t.1 t.2.1 t.2.2
  let s := if r.2 then
      { s with nonFlat := Function.update (Function.update s.nonFlat t.2.1 0) t.2.2 0, found := true,
               d3 := s.d3 ++ [t] }
    else s
  { s with point := set3 r.1 t.1 t.2.1 t.2.2 1 1 1 }

/-- The body of the loop over two directions, minimum_tracer.cpp:861-877. -/
def step2 (V : Vec n K → K) (s : State n K) (t : Fin n × Fin n) : State n K :=
  let p1 := set2 s.point t.1 t.2 2 100
  let p2 := set2 p1 t.1 t.2 100 2
  let s' : State n K := { s with point := set2 p2 t.1 t.2 1 1 }
  if same (V p1) (V p2) then
    { s' with nonFlat := Function.update s.nonFlat t.2 0, found := true, d2 := s.d2 ++ [t] }
  else s'

/-- The body of the loop over one direction, minimum_tracer.cpp:884-897. -/
def step1 (V : Vec n K → K) (s : State n K) (i : Fin n) : State n K :=
  let p1 := Function.update s.point i 2
  let p2 := Function.update p1 i 100
  let s' : State n K := { s with point := Function.update p2 i 1 }
  if same (V p1) (V p2) then
    { s' with nonFlat := Function.update s.nonFlat i 0, found := true, d1 := s.d1 ++ [i] }
  else s'

/-- The indices of the loop over three directions, minimum_tracer.cpp:791-796: the third starts at the
second. -/
def triples (n : Nat) : List (Fin n × Fin n × Fin n) :=
  (List.finRange n).flatMap fun i => ((List.finRange n).filter (i < ·)).flatMap fun j =>
    ((List.finRange n).filter (j ≤ ·)).map fun k => (i, j, k)

/-- The indices of the loop over two directions, minimum_tracer.cpp:857-860. -/
def pairs (n : Nat) : List (Fin n × Fin n) :=
  (List.finRange n).flatMap fun i => ((List.finRange n).filter (i < ·)).map fun j => (i, j)

/-- `erase(unique(...))`, minimum_tracer.cpp:939-944, after the element `a`. -/
def dedupFrom {α : Type} [DecidableEq α] (a : α) : List α → List α
  | [] => [a]
  | b :: l => if a = b then dedupFrom a l else a :: dedupFrom b l

/-- `erase(unique(...))`, minimum_tracer.cpp:939-944. -/
def dedup {α : Type} [DecidableEq α] : List α → List α
  | [] => []
  | a :: l => dedupFrom a l

/-- `MinimumTracer::FindFlatDirections`, minimum_tracer.cpp:776-946. -/
def findFlat (V : Vec n K → K) : State n K :=
  let s := (triples n).foldl (step3 V) State.init
  let s := (pairs n).foldl (step2 V) s
  let s := (List.finRange n).foldl (step1 V) s
  { s with d1 := dedup s.d1, d2 := dedup s.d2, d3 := dedup s.d3 }

/-- A line written to the log, minimum_tracer.cpp:904-936. -/
inductive Message (n : Nat) where
  | encountered
  | one (i : Fin n)
  | two (p : Fin n × Fin n)
  | three (p : Fin n × Fin n × Fin n)
  | chosen (l : List Int)
  deriving DecidableEq

/-- The messages, minimum_tracer.cpp:902-937.  They are written before neighbouring duplicates are removed;
there are none. -/
def messages (s : State n K) : List (Message n) :=
  if s.found then
    [.encountered] ++
      (if s.d1.length > 0 then s.d1.map .one
       else if s.d2.length > 0 then s.d2.map .two
       else if s.d3.length > 0 then s.d3.map .three
       else []) ++
      [.chosen ((List.finRange n).map s.nonFlat)]
  else []

end Verif.Tracer.Flat
