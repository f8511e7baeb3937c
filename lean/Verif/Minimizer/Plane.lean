import Mathlib.Algebra.Order.Field.Basic
import Verif.Minimizer.Model

/-!
# Minimisation in a plane

`TransformCoordinates` and `MinimizePlane` (src/minimizer/MinimizePlane.cpp).  Doubles are elements of
an ordered field without rounding; values of the potential may be NaN.  What the three external
minimisers return is a parameter: coordinates in the plane (and for NLopt the value it reports).
-/

namespace Verif.Minimizer

open Outcome

/-- The members of `PointerContainerMinPlane` used here, MinimizePlane.h:70-109. -/
structure Plane (K : Type) where
  nVEV : Nat
  index : Nat
  normal : List K
  point : List K

section
variable {K : Type} [Field K]

/-- The sums `plane_const` and `plane_coord`, MinimizePlane.cpp:70-75: `Σ a.at(i) * b.at(i)`. -/
def planeSum (n : Nat) (a b : List K) : Outcome K :=
  (List.range n).foldlM (fun s i => do
    let x ← at' a i
    let y ← at' b i
    Outcome.ok (s + x * y)) 0

/-- `TransformCoordinates`, MinimizePlane.cpp:42-80.  The three loops of lines 60-68 insert a zero at
`Index`; `vMin[params.Index]` is a write past the end when `Index` is too large. -/
def transformCoordinates (p : Plane K) (tilde : List K) : Outcome (List K) :=
  if tilde.length + 1 ≠ p.nVEV then .err .runtime
  else if p.nVEV ≤ p.index then .ub .outOfBounds
  else
    let vMin := tilde.take p.index ++ 0 :: tilde.drop p.index
    do
      let const ← planeSum p.nVEV p.normal p.point
      let coord ← planeSum p.nVEV p.normal vMin
      let n ← at' p.normal p.index
      .ok (vMin.set p.index (1 / n * (const - coord)))

end

section
variable {K : Type} [Field K] [LinearOrder K]

/-- The loop MinimizePlane.cpp:146-154: the first component of the normal vector that is not small. -/
def indexNorm (normal : List K) : Option Nat :=
  normal.findIdx? fun x => decide (1 / 1000 ≤ |x|)

/-- What the minimisers deliver: the solutions of the 50 GSL runs in the coordinates of the plane
(the zero vector for a run without success, lines 285-294), the best candidate of CMAES, the result of
NLopt with the value it reports.  `none` for a library that is not available. -/
structure PlaneFound (K : Type) where
  gsl : List (List K)
  cmaes : List K
  nlopt : List K
  nloptValue : Flt K

/-- `GSL_Minimize_Plane_gen_all`, MinimizePlane.cpp:323-403, applied to the solutions of the runs. -/
def gslPlane (p : Plane K) (V : List K → Flt K) (tildes : List (List K)) :
    Outcome (Option (Cand (List K) K)) := do
  let sols ← tildes.mapM (transformCoordinates p)
  .ok (gslSelect (sols.map fun s => ⟨s, V s⟩))

/-- The GSL part of `MinimizePlane`, lines 167-173; without a solution the result is empty with an
indeterminate value. -/
def planeGSL (use : Use) (p : Plane K) (V : List K → Flt K) (f : PlaneFound K) :
    Outcome (List (Cand (List K) K)) :=
  if use.gsl then do
    match ← gslPlane p V f.gsl with
    | some c => .ok [c]
    | none => .ub .uninitialised
  else .ok []

/-- The CMAES part, lines 175-194; the point is evaluated again. -/
def planeCMAES (use : Use) (p : Plane K) (V : List K → Flt K) (f : PlaneFound K) :
    Outcome (List (Cand (List K) K)) :=
  if use.cmaes && decide (3 ≤ p.nVEV) then do
    let s ← transformCoordinates p f.cmaes
    .ok [⟨s, V s⟩]
  else .ok []

/-- The NLopt part, lines 196-203 and MinimizeNLOPT.cpp:133-139. -/
def planeNLopt (use : Use) (p : Plane K) (f : PlaneFound K) : Outcome (List (Cand (List K) K)) :=
  if use.nlopt then do
    let s ← transformCoordinates p f.nlopt
    .ok [⟨s, f.nloptValue⟩]
  else .ok []

/-- The vectors `PotValues` and `Minima`, lines 167-203. -/
def planeCandidates (use : Use) (p : Plane K) (V : List K → Flt K) (f : PlaneFound K) :
    Outcome (List (Cand (List K) K)) := do
  let g ← planeGSL use p V f
  let c ← planeCMAES use p V f
  let n ← planeNLopt use p f
  .ok (g ++ c ++ n)

/-- The normal vector, lines 133-135; `VEVSymmetric.at(i)` throws when it is shorter. -/
def planeNormal (broken symmetric : List K) : Outcome (List K) :=
  (List.range broken.length).mapM fun i => do
    let b ← at' broken i
    let s ← at' symmetric i
    Outcome.ok (b - s)

/-- `MinimizePlane`, MinimizePlane.cpp:119-219. -/
def minimizePlane (use : Use) (nVEV : Nat) (base symmetric broken : List K) (V : List K → Flt K)
    (found : Plane K → PlaneFound K) : Outcome (Cand (List K) K) := do
  let normal ← planeNormal broken symmetric
  match indexNorm normal with
  | none => .err .runtime
  | some i =>
    let p : Plane K := ⟨nVEV, i, normal, base⟩
    match ← planeCandidates use p V (found p) with
    | [] => .err .outOfRange
    | c :: cs => .ok (argmin c cs)

end

end Verif.Minimizer
