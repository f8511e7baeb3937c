import Verif.Minimizer.Plane
import Verif.Minimizer.Runs

/-!
# Model of the single searches in a plane (`MinimizePlane.cpp`, `MinimizeNLOPT.cpp`,
`MinimizeLibCMAES.cpp`)

The simplex algorithm of GSL, the evolution strategy of libcmaes and the search of NLopt are
parameters.  The number of fields is at least 1.
-/

set_option linter.unusedVariables false

namespace Verif.Minimizer.PlaneRuns

open Outcome
open Runs (Simplex Row Potential)

variable {S K : Type} [Field K] [LinearOrder K]

/-! ## GSL -/

/-- `GSL_VEFF_Minimize_Plane`, MinimizePlane.cpp:221-235; also the objectives of CMAES,
MinimizeLibCMAES.cpp:113-127, and of NLopt, MinimizeNLOPT.cpp:78-88, the last without taking the
first entries. -/
def objective (p : Plane K) (pot : Potential K) (v : List K) : Outcome (Flt K) := do
  let tilde ← (List.range (p.nVEV - 1)).mapM (idx v)
  let w ← transformCoordinates p tilde
  let o ← pot.order w
  ok (pot.veff o)

/-- `GSL_Minimize_Plane_From_S_gen_all`, MinimizePlane.cpp:237-301: the vector `sol` afterwards and the
status.  For zero dimensions `gsl_multimin_fminimizer_alloc` gives a null pointer (the error handler is
switched off in line 243), which line 272 dereferences. -/
def fromStart (m : Simplex S K) (dim : Nat) (sol start : List K) : Outcome (List K × Int) := do
  let x ← (List.range dim).mapM (at' start)
  if dim = 0 then ub .outOfBounds
  else
    let r := Runs.loop m (1 / 10 ^ 6) (600 - 1) (m.init x)
    if r.2 = 0 then ok (sol ++ (List.range dim).map (m.x r.1), r.2)
    else ok (sol ++ List.replicate dim 0, r.2)

/-- The start vector of the `n`-th try, MinimizePlane.cpp:345-352; `rnd` are the random numbers in
their order. -/
def startPoint (rnd : Nat → K) (dim n : Nat) : List K :=
  (List.range dim).map fun j => 500 * (-1 + 2 * rnd (n * dim + j))

/-- One try, MinimizePlane.cpp:345-366.  The status of the run is not looked at. -/
def try' (m : Simplex S K) (p : Plane K) (pot : Potential K) (rnd : Nat → K) (n : Nat) :
    Outcome (Row K) := do
  let dim := pot.nVEV - 1
  let r ← fromStart m dim [] (startPoint rnd dim n)
  let sol ← transformCoordinates p r.1
  let vPot ← pot.order sol
  let xs ← (List.range (dim + 1)).mapM (at' sol)
  ok ⟨xs, pot.ewsb vPot, pot.veff vPot⟩

/-- The loop MinimizePlane.cpp:343-375.  `left` is the number of further rounds that `MinTries`
allows, `n` the number of solutions so far. -/
def tries (step : Nat → Outcome (Row K)) (minSol : Nat) :
    (left n : Nat) → List (Row K) → Outcome (Nat × List (Row K))
  | left, n, saved => do
    let r ← step n
    if n + 1 = minSol then ok (n + 1, saved ++ [r])
    else match left with
      | 0 => ok (n + 1, saved ++ [r])
      | left' + 1 => tries step minSol left' (n + 1) (saved ++ [r])

/-- The members of `GSLPlaneReturn`. -/
structure Found (K : Type) where
  status : Bool
  value : Flt K
  vc : Flt K
  minimum : List K

/-- The choice MinimizePlane.cpp:385-402, for the number of solutions that were found. -/
def choose (dim numOfSol : Nat) (saved : List (Row K)) : Outcome (Found K) := do
  let first ← idx saved 0
  let best ← idx saved (Runs.lowest 0 first.value 1 ((saved.take numOfSol).drop 1))
  let xs ← (List.range (dim + 1)).mapM (idx best.point)
  ok ⟨true, best.value, best.vev, xs⟩

/-- `GSL_Minimize_Plane_gen_all`, MinimizePlane.cpp:323-403.  `saved` is `saveAllMinima` at the start;
the test in line 376 never holds, because each round adds a solution. -/
def gslPlane (m : Simplex S K) (p : Plane K) (pot : Potential K) (rnd : Nat → K) (saved : List (Row K))
    (minSol : Nat) : Outcome (List (Row K) × Found K) := do
  let r ← tries (try' m p pot rnd) minSol 600 0 saved
  let f ← choose (pot.nVEV - 1) r.1 r.2
  ok (r.2, f)

/-! ## NLopt -/

/-- One round of the loop MinimizeNLOPT.cpp:96-124 at the coordinate `j` of the plane and the
tree-level VEV `v`. -/
def bound (b : List K × List K) (j : Nat) (v : K) : Outcome (List K × List K) := do
  let u ← at' b.2 j
  let upper := if u < |v| then b.2.set j (3 / 2 * v) else b.2
  let l ← at' b.1 j
  let lower := if -|v| < l then b.1.set j (-(3 / 2) * |v|) else b.1
  ok (lower, upper)

/-- The bounds, MinimizeNLOPT.cpp:93-124: the lower and the upper ones. -/
def bounds (nVEV index : Nat) (tree : List K) : Outcome (List K × List K) :=
  (List.range nVEV).foldlM (fun b i => do
    if i < index then
      let v ← at' tree i
      bound b i v
    else if index < i then
      let v ← at' tree i
      bound b (i - 1) v
    else ok b) (List.replicate (nVEV - 1) (-300), List.replicate (nVEV - 1) 300)

/-- The result of NLopt: the point, its value, the code and the flag. -/
structure NLopt (K : Type) where
  minimum : List K
  value : Flt K
  code : Int
  success : Bool

/-- `MinimizePlaneUsingNLOPT`, MinimizeNLOPT.cpp:90-140.  `opt` is the search of the library: from the
objective, the bounds and the start vector it makes the point, the value and the code, or throws. -/
def nloptPlane (opt : (List K → Outcome (Flt K)) → List K → List K → List K → Outcome (List K × Flt K × Int))
    (p : Plane K) (pot : Potential K) (tree : List K) : Outcome (NLopt K) := do
  let b ← bounds pot.nVEV p.index tree
  let r ← opt (fun v => do
      let w ← transformCoordinates p v
      let o ← pot.order w
      ok (pot.veff o)) b.1 b.2 (List.replicate (pot.nVEV - 1) 0)
  let minimum ← transformCoordinates p r.1
  ok ⟨minimum, r.2.1, r.2.2, decide (r.2.2 = 1) || decide (r.2.2 = 3) || decide (r.2.2 = 4)⟩

/-! ## CMAES -/

/-- The start vector, MinimizePlane.cpp:178-187. -/
def cmaesStart (nVEV index : Nat) (broken : List K) : Outcome (List K) := do
  let a ← (List.range index).foldlM (fun s i => do
    let v ← at' broken i
    if i < s.length then ok (s.set i v) else err .outOfRange) (List.replicate (nVEV - 1) (0 : K))
  (List.range' index (nVEV - 1 - index)).foldlM (fun s i => do
    let v ← at' broken (i + 1)
    if i < s.length then ok (s.set i v) else err .outOfRange) a

/-- `CMAES_Minimize_Plane_gen_all`, MinimizeLibCMAES.cpp:88-147.  `strategy` as in `Runs.cmaes`. -/
def cmaesPlane (strategy : (List K → Outcome (Flt K)) → List K → K → Outcome (List K × Int))
    (p : Plane K) (pot : Potential K) (start : List K) : Outcome (List K × Int) := do
  let x0 ← (List.range (p.nVEV - 1)).mapM (at' start)
  let r ← strategy (objective p pot) x0 5
  let sol ← (List.range (p.nVEV - 1)).mapM (at' r.1)
  let w ← transformCoordinates p sol
  ok (w, r.2)

end Verif.Minimizer.PlaneRuns
