import Verif.Outcome
import Mathlib.Algebra.Order.Field.Basic
import Mathlib.Analysis.Real.Sqrt
import Mathlib.LinearAlgebra.Matrix.NonsingularInverse

/-!
# Model of the geometric helpers of `src/minimum_tracer/minimum_tracer.cpp`

A point in the space of the VEVs is a function `Fin n → K`, where `n` is `nVEV` of the model and `K`
an ordered field (no rounding, no NaN).  Vectors of other lengths, which the code would index out of
bounds, are not modelled here, except in `Create1DimGrid`.
-/

namespace Verif.Tracer

open Outcome

abbrev Vec (n : Nat) (K : Type) := Fin n → K

section Field

variable {n : Nat} {K : Type} [Field K] [LinearOrder K]

/-! ## Discrete symmetries -/

/-- A sign flip: the directions in which the diagonal matrix has `-1`. -/
abbrev Mask (n : Nat) := Fin n → Bool

/-- The diagonal matrix applied to a point. -/
def flip (g : Mask n) (v : Vec n K) : Vec n K := fun i => if g i then -v i else v i

/-- The bitmasks with `k` ones, minimum_tracer.cpp:1013-1025: `std::prev_permutation`, started from
the largest one, visits all of them in decreasing lexicographic order. -/
def masks : (n k : Nat) → List (List Bool)
  | 0, 0 => [[]]
  | 0, _ + 1 => []
  | n + 1, 0 => (masks n 0).map (false :: ·)
  | n + 1, k + 1 => (masks n k).map (true :: ·) ++ (masks n (k + 1)).map (false :: ·)

/-- A list of `n` bits as a mask. -/
def toMask (n : Nat) (l : List Bool) : Mask n := fun i => l.getD i false

/-- `C2GroupElements`, minimum_tracer.cpp:1010-1026: for every number of flipped directions from `0`
to `dim`, all masks. -/
def allMasks (n : Nat) : List (Mask n) :=
  ((List.range (n + 1)).flatMap (masks n)).map (toMask n)

/-- `FindDiscreteSymmetries`, minimum_tracer.cpp:965-1051.  `check` is the numerical test of the
invariance of the potential at ten random points (lines 992-1004). -/
def findDiscreteSymmetries (check : Mask n → Bool) : List (Mask n) := (allMasks n).filter check

/-- The bits appended in lines 713-715: is the entry at least 1e-5? -/
def heaviside (v : Vec n K) : List Bool := List.ofFn fun i => decide (1 / 100000 ≤ v i)

/-- `std::strtol(_, _, 2)`, line 718. -/
def binary (l : List Bool) : Nat := l.foldl (fun acc b => 2 * acc + (if b then 1 else 0)) 0

/-- The loop of `ReduceVEV`, minimum_tracer.cpp:700-727; `m` is `MaximumMeasure`. -/
def reduceLoop : List (Mask n) → Int → Vec n K → Vec n K
  | [], _, v => v
  | g :: gs, m, v =>
    let b : Int := binary (heaviside (flip g v))
    let m' := if b > m then b else m
    let v' := if b > m then flip g v else v
    if m' = 2 ^ n - 1 then v' else reduceLoop gs m' v'

/-- `MinimumTracer::ReduceVEV`, minimum_tracer.cpp:700-727. -/
def reduceVEV (group : List (Mask n)) (v : Vec n K) : Vec n K := reduceLoop group (-1) v

/-! ## Paths and grids -/

/-- `MinimumTracer::WarpPath`, minimum_tracer.cpp:734-757, on one point. -/
def warpPoint (t1 f1 t2 f2 : Vec n K) (p : Vec n K) : Vec n K := fun d =>
  if f1 d - t1 d = 0 then t2 d + (p d - t1 d)
  else t2 d + (f2 d - t2 d) * (p d - t1 d) / (f1 d - t1 d)

/-- `MinimumTracer::WarpPath`, minimum_tracer.cpp:734-757. -/
def warpPath (path : List (Vec n K)) (t1 f1 t2 f2 : Vec n K) : List (Vec n K) :=
  path.map (warpPoint t1 f1 t2 f2)

/-- `Create1DimGrid(point, k, low, high, nsteps)`, minimum_tracer.cpp:1380-1407.  `res.at(k)` throws
for an index out of range, also for a negative one, which is converted to a huge `size_t`; the loop
body is not reached when `nsteps` is negative. -/
def create1DimGrid (point : List K) (k : Int) (low high : K) (nsteps : Int) :
    Outcome (List (List K)) :=
  if nsteps = 0 then ok [point]
  else
    let stepsize := (high - low) / nsteps
    (List.range (nsteps + 1).toNat).mapM fun (i : Nat) =>
      if 0 ≤ k ∧ k < point.length then ok (point.set k.toNat (low + i * stepsize))
      else err .outOfRange

/-- `Create1DimGrid(min_start, min_end, npoints)`, minimum_tracer.cpp:1409-1426. -/
def createLine (a b : Vec n K) (npoints : Int) : List (Vec n K) :=
  if 0 < npoints then
    a :: (List.range npoints.toNat).map fun i => a + ((i + 1 : Nat) : K) • ((1 / (npoints : K)) • (b - a))
  else [a]

/-! ## Comparison -/

/-- `almost_the_same(double, double, ...)`, minimum_tracer.cpp:1428-1438. -/
def almostSame (a b rel zero : K) : Bool :=
  if |a| < zero ∧ |b| < zero then true else decide (|a - b| < |a + b| / 2 * rel)

/-- `almost_the_same(vector, vector, ...)`, minimum_tracer.cpp:1440-1472. -/
def almostSameVec (a b : List K) (allowForSignFlip : Bool) (rel zero : K) : Outcome Bool :=
  if a.length ≠ b.length then err .runtime
  else
    let count := ((List.zip a b).filter fun (x, y) =>
      if allowForSignFlip then almostSame x y rel zero else almostSame |x| |y| rel zero).length
    ok (decide (count = a.length))

/-! ## Flat directions -/

/-- The points used to detect two-dimensional flat directions, minimum_tracer.cpp:859-868: `x` in
direction `i`, `y` in direction `j`, 1 elsewhere. -/
def probe2 (i j : Fin n) (x y : K) : Vec n K := fun k => if k = j then y else if k = i then x else 1

/-- The pairs stored in `flat_2D_dirs`, minimum_tracer.cpp:855-878 (`unique` in lines 941-942 has no
effect, no pair occurs twice).  `V` is the tree-level potential; the tolerance is 1e-8 and
`num_zero` has its default 1e-10. -/
def flat2D (V : Vec n K → K) : List (Fin n × Fin n) :=
  (List.finRange n).flatMap fun i => (List.finRange n).filterMap fun j =>
    if i < j ∧ almostSame (V (probe2 i j 2 100)) (V (probe2 i j 100 2)) (1 / 10 ^ 8) (1 / 10 ^ 10)
    then some (i, j) else none

end Field

/-- `ConvertToNonFlatDirections`, minimum_tracer.cpp:948-963, over the reals.  (When `flat_dirs_found`
is false the list of pairs is empty.) -/
noncomputable def convertToNonFlat {n : Nat} (pairs : List (Fin n × Fin n)) (p : Vec n ℝ) :
    Vec n ℝ :=
  pairs.foldl (fun p ij =>
    let c := Real.sqrt (p ij.1 * p ij.1 + p ij.2 * p ij.2)
    Function.update (Function.update p ij.1 c) ij.2 0) p

/-! ## Status tables -/

/-- `enum class StatusNLOStability`, minimum_tracer.h:38-44. -/
inductive NLOStatus where
  | notSet | off | success | noNLOStability
  deriving DecidableEq, Repr

/-- `enum class StatusEWSR`, minimum_tracer.h:59-68. -/
inductive EWSR where
  | notSet | off | failure | notBFB | flatRegion | ewSymNonRes | ewSymRes
  deriving DecidableEq, Repr

/-- `enum class StatusTracing`, minimum_tracer.h:86-94. -/
inductive Tracing where
  | notSet | success | noCoverage | noMinsAtBoundaries | noGlobMinCoverage | failure
  deriving DecidableEq, Repr

/-- `enum class StatusCoexPair`, minimum_tracer.h:111-116. -/
inductive CoexPair where
  | notSet | success | noCoexPairs
  deriving DecidableEq, Repr

/-- `enum class StatusCrit`, minimum_tracer.h:129-136. -/
inductive Crit where
  | notSet | success | falseLower | trueLower | failure
  deriving DecidableEq, Repr

/-- `enum class StatusTemperature`, minimum_tracer.h:151-157. -/
inductive TempStatus where
  | notSet | success | notMet | nan
  deriving DecidableEq, Repr

/-- `enum class StatusGW`, minimum_tracer.h:171-176. -/
inductive GWStatus where
  | notSet | success | failure
  deriving DecidableEq, Repr

/-- `StatusNLOStabilityToString`, minimum_tracer.h:49-54. -/
def NLOStatus.name : NLOStatus → String
  | .notSet => "not_set" | .off => "off" | .success => "success"
  | .noNLOStability => "no_nlo_stability"

/-- `StatusEWSRToString`, minimum_tracer.h:74-81. -/
def EWSR.name : EWSR → String
  | .notSet => "not_set" | .off => "off" | .failure => "failure" | .notBFB => "non_bfb"
  | .flatRegion => "flat_region" | .ewSymNonRes => "ew_syum_non_res" | .ewSymRes => "ew_sym_res"

/-- `StatusTracingToString`, minimum_tracer.h:99-105. -/
def Tracing.name : Tracing → String
  | .notSet => "not_set" | .success => "success" | .noCoverage => "no_coverage"
  | .noMinsAtBoundaries => "no_mins_at_boundaries" | .noGlobMinCoverage => "no_glob_min_coverage"
  | .failure => "failure"

/-- `StatusCoexPairToString`, minimum_tracer.h:121-124. -/
def CoexPair.name : CoexPair → String
  | .notSet => "not_set" | .success => "success" | .noCoexPairs => "no_coex_pair"

/-- `StatusCritToString`, minimum_tracer.h:140-145. -/
def Crit.name : Crit → String
  | .notSet => "not_set" | .success => "success" | .falseLower => "false_lower"
  | .trueLower => "true_lower" | .failure => "failure"

/-- `StatusTemperatureToString`, minimum_tracer.h:162-166. -/
def TempStatus.name : TempStatus → String
  | .notSet => "not_set" | .success => "success" | .notMet => "not_met" | .nan => "nan"

/-- `StatusGWToString`, minimum_tracer.h:181-184. -/
def GWStatus.name : GWStatus → String
  | .notSet => "not_set" | .success => "success" | .failure => "failure"

/-- `GetStatusNLOVEV`, minimum_tracer.cpp:1129-1137. -/
def getStatusNLOVEV (out : Bool) : NLOStatus := if out then .success else .noNLOStability

/-- `GetStatusEWSR`, minimum_tracer.cpp:1139-1172. -/
def getStatusEWSR (out : Int) : EWSR :=
  if out = 3 then .ewSymRes
  else if out = 2 then .ewSymNonRes
  else if out = 1 then .flatRegion
  else if out = 0 then .failure
  else if out = -1 then .notBFB
  else .failure

/-- The final part of `IsThereEWSymmetryRestoration`, minimum_tracer.cpp:1233-1269.  `converged`: the
rescaled Hessian became constant (line 1233); `ev` its smallest eigenvalue; `stationary` the
solution of the linear system, `none` when an entry is NaN (lines 1253-1255); `ewvev` the
electroweak VEV there. -/
def ewsrOutcome {K P : Type} [Field K] [LinearOrder K] (converged : Bool) (ev : K)
    (stationary : Option P) (ewvev : P → K) : Int :=
  if !converged then 0
  else if ev < 0 then -1
  else if ev = 0 then 1
  else match stationary with
    | none => 0
    | some p => if ewvev p ≤ 1 / 2 then 3 else 2

/-- `HighTemperatureVEV`, minimum_tracer.cpp:1246-1258: the solution of the linear system whose matrix
is the Hessian and whose right-hand side is the gradient, both at the origin.  (For a singular matrix,
which is excluded by the test of the smallest eigenvalue, this differs from the least-squares solution
of the library.) -/
noncomputable def highTemperatureVEV {n : Nat} (H : Matrix (Fin n) (Fin n) ℝ) (g : Vec n ℝ) :
    Vec n ℝ := H⁻¹.mulVec g

/-- The decision in `TransitionTracer`, transition_tracer.cpp:47-79: the status stored and whether the
point is filtered out.  `check` is the option `ewsr_check`. -/
def ewsrDecision (check : Int) (outcome : Int) : EWSR × Bool :=
  if check > 0 then
    (getStatusEWSR outcome,
      decide (check = 2 ∧ outcome < 2) || decide (check = 3 ∧ outcome < 3))
  else (.off, false)

end Verif.Tracer
