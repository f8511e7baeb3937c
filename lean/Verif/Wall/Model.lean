import Verif.Outcome
import Mathlib.Analysis.Real.Sqrt

/-!
# Model of `src/WallThickness`

`calculate_wall_thickness_plane` (WallThicknessLib.cpp) computes the minima of the potential on eleven
planes in parallel.  The threads are modelled by their atomic actions: the test of the shared index, the
increment of the index with the access to the base points, and the write of the result under the lock.
The minimisation itself is a function of the base point.
-/

namespace Verif.Wall

open Outcome

variable {K P : Type}

/-- Where a thread is in `thread_Job`, WallThicknessLib.cpp:72-97. -/
inductive Pc (P : Type) where
  /-- before the test `mDataIndex < a_BasePoints.size()`, line 83 -/
  | check
  /-- before `a_BasePoints.at(mDataIndex++)`, line 85 -/
  | fetch
  /-- with a base point, before the write of the result, lines 86-96 -/
  | work (d : Nat × P)
  /-- finished -/
  | done

/-- The shared state: `DataIndex`, `Data_min_negative` and the threads. -/
structure State (K P : Type) where
  index : Nat
  data : List K
  threads : List (Pc P)

/-- One action of the thread `t`.  An exception that leaves the function of a thread ends the program. -/
def step [Neg K] (pts : List (Nat × P)) (V : P → K) (s : State K P) (t : Nat) : Outcome (State K P) :=
  match s.threads[t]? with
  | none => ok s
  | some .done => ok s
  | some .check =>
    ok { s with threads := s.threads.set t (if s.index < pts.length then .fetch else .done) }
  | some .fetch =>
    match pts[s.index]? with
    | none => err .outOfRange
    | some d => ok { s with index := s.index + 1, threads := s.threads.set t (.work d) }
  | some (.work d) =>
    if d.1 < s.data.length then
      ok { s with data := s.data.set d.1 (-V d.2), threads := s.threads.set t .check }
    else err .outOfRange

/-- The actions of a schedule, which names the thread that acts next. -/
def run [Neg K] (pts : List (Nat × P)) (V : P → K) : State K P → List Nat → Outcome (State K P)
  | s, [] => ok s
  | s, t :: ts => (step pts V s t).bind fun s => run pts V s ts

/-- The state after the creation of the threads, WallThicknessLib.cpp:51-57 and 99-114; `threads` is
`std::thread::hardware_concurrency()`, line 34. -/
def start [Zero K] (pts : List (Nat × P)) (threads : Nat) : State K P :=
  ⟨0, List.replicate pts.length 0, List.replicate threads .check⟩

/-- `maxstep`, WallThicknessLib.cpp:51. -/
def maxstep : Nat := 10

/-- One base point, WallThicknessLib.cpp:62-68. -/
noncomputable def basePoint (vsym vcrit : List ℝ) (n : Nat) : List ℝ :=
  let t : ℝ := 1 / maxstep * n
  List.zipWith (fun s c => s * (1 - t) + c * t) vsym vcrit

/-- `BasePoints`, WallThicknessLib.cpp:59-70. -/
noncomputable def basePoints (vsym vcrit : List ℝ) : List (Nat × List ℝ) :=
  (List.range (maxstep + 1)).map fun n => (n, basePoint vsym vcrit n)

/-- The part of `calculate_wall_thickness_plane` after the threads, WallThicknessLib.cpp:124-143.
* `spline`: `boost_cubic_b_spline` through values at 0, h, 2h, ...,
* `brent`: the value at the minimum that `brent_find_minima` finds in an interval,
* `vc`: `EWSBVEV` of the critical vacuum expectation values. -/
noncomputable def thickness (spline : List ℝ → ℝ → ℝ → ℝ → ℝ) (brent : (ℝ → ℝ) → ℝ → ℝ → ℝ) (vc : ℝ)
    (data : List ℝ) : ℝ :=
  let f := spline data 0 (1 / maxstep)
  let vMax := -brent f 0 1
  let vMin := min (-f 0) (-f 1)
  vc / √(8 * (vMax - vMin))

/-- `calculate_wall_thickness_plane`, WallThicknessLib.cpp:36-144, for a schedule after which all threads
are joined (`none`: the threads have not all finished); `V vsym vcrit b` is the value of the potential at
the minimum of the plane through `b`. -/
noncomputable def planeThickness (spline : List ℝ → ℝ → ℝ → ℝ → ℝ) (brent : (ℝ → ℝ) → ℝ → ℝ → ℝ)
    (vc : ℝ) (V : List ℝ → ℝ) (threads : Nat) (schedule : List Nat) (vsym vcrit : List ℝ) :
    Outcome (Option ℝ) :=
  if vcrit.length ≠ vsym.length then err .runtime
  else
    (run (basePoints vsym vcrit) V (start (basePoints vsym vcrit) threads) schedule).bind fun s =>
      ok (if s.threads.all (fun p => match p with | .done => true | _ => false) then
        some (thickness spline brent vc s.data) else none)

/-! ## The one-dimensional variant, WallThickness1D.cpp -/

/-- `GSL_VEFF_gen_all_maximum_line(t, p)`, WallThickness1D.cpp:39-58. -/
def lineValue [Field K] (V : List K → K) (vcrit vsym : List K) (t : K) : K :=
  -1 * V (List.zipWith (fun m s => t * m + (1 - t) * s) vcrit vsym)

/-- The choice among the solutions `(t, value)` of the minimiser, WallThickness1D.cpp:106-115. -/
def choose [LT K] [DecidableLT K] (first : K × K) (rest : List (K × K)) : K × K :=
  rest.foldl (fun best s => if best.2 < s.2 then s else best) first

/-- The rest of `GSL_Find_Maximum_line`, WallThickness1D.cpp:117-156, called with an empty `solV`: the
position of the barrier and its height, which is appended.  `V` is the potential as a function of the
vacuum expectation values. -/
def maximumLine [Field K] [LinearOrder K] (V : List K → K) (vcrit : List K) (first : K × K)
    (rest : List (K × K)) : List K × K :=
  let t := (choose first rest).1
  let solV := vcrit.map fun v => t * v
  let vMin := min (V (vcrit.map fun _ => 0)) (V vcrit)
  (solV, V solV - vMin)

/-- `calculate_wall_thickness_1D`, WallThickness1D.cpp:60-73. -/
noncomputable def thickness1D (vc vb : ℝ) : ℝ := if vb ≠ 0 then vc / √(8 * vb) else 0

end Verif.Wall
