import Verif.Batch.Model
import Verif.Batch.Legend
import Mathlib.Algebra.Field.Defs

/-!
# Output files of PlotEWBG_vw, PlotEWBG_nL and CreateMuGrid

The files are lists of lines.  Numbers are written by a parameter `fmt`.  What the libraries of the baryogenesis compute is
a parameter, too.
-/

namespace Verif.Batch.Ewbg

open Outcome

abbrev Line := List Char

variable {K : Type}

/-- What has been written, and how the program ends: `ok true` for `EXIT_SUCCESS`, `ok false` for `EXIT_FAILURE` after a
message, an exception for one that `main` turns into a message and `EXIT_FAILURE`. -/
structure Result where
  lines : List Line
  exit : Outcome Bool

/-- The last line given to `initModel`. -/
def point : List Step → Option Line
  | [] => none
  | .legend _ :: l => point l
  | .point x :: l => match point l with
    | some y => some y
    | none => some x

/-- One line for each line taken as a legend. -/
def headers (f : Line → Line) (steps : List Step) : List Line := steps.filterMap fun
  | .legend l => some (f l)
  | .point _ => none

/-- PlotEWBG_vw.cpp:94-99; `eta` is the legend of the interface. -/
def vwHeader (eta : List String) (line : Line) : Line :=
  line ++ '\t' :: "T_c_var".toList ++ '\t' :: "omega_c_var".toList ++ '\t' :: "vw_var".toList ++ '\t' :: "LW_var".toList ++
    sepEach (chars (eta.map (· ++ "_var")))

/-- PlotEWBG_vw.cpp:163-167. -/
def vwRow (fmt : K → Line) (line : Line) (tc vc vw lw : K) (eta : List K) : Line :=
  line ++ '\t' :: fmt tc ++ '\t' :: fmt vc ++ '\t' :: fmt vw ++ '\t' :: fmt lw ++ sepEach (eta.map fmt)

/-- The line without a transition, PlotEWBG_vw.cpp:172 and PlotEWBG_nL.cpp:209. -/
def noTransition : Line := "-1".toList ++ "-1".toList ++ "-1".toList ++ "-1".toList ++ "-1".toList

/-- The loop over the wall velocities, PlotEWBG_vw.cpp:154-168; `eval` gives the thickness of the wall and the asymmetries.
An exception ends the program, the lines written before are kept. -/
def vwRows (fmt : K → Line) (line : Line) (tc vc : K) (eval : K → Outcome (K × List K)) : List K → List Line × Outcome Bool
  | [] => ([], ok true)
  | vw :: vws =>
    match eval vw with
    | ok r =>
      let rest := vwRows fmt line tc vc eval vws
      (vwRow fmt line tc vc vw r.1 r.2 :: rest.1, rest.2)
    | err e => ([], err e)
    | ub u => ([], ub u)

/-- What is known about the transition: `StatusFlag == SUCCESS`, `C_PT * Tc < vc`, `Tc` and `vc`. -/
structure Transition (K : Type) where
  success : Bool
  strong : Bool
  tc : K
  vc : K

/-- PlotEWBG_vw.cpp:83-176, after the files have been opened; `steps` is what `searchProgram` gives, `find` the result of
`PTFinder_gen_all` for a line, `vws` the velocities of the loop. -/
def plotVw (fmt : K → Line) (eta : List String) (steps : List Step) (find : Line → Transition K)
    (eval : Line → K → Outcome (K × List K)) (vws : List K) : Result :=
  let head := headers (vwHeader eta) steps
  match point steps with
  | none => ⟨head, ok false⟩
  | some line =>
    let t := find line
    if t.success && t.strong then
      let r := vwRows fmt line t.tc t.vc (eval line) vws
      ⟨head ++ r.1, r.2⟩
    else ⟨head ++ [noTransition], ok true⟩

/-- PlotEWBG_nL.cpp:98-103. -/
def nlHeader (line : Line) : Line :=
  line ++ '\t' :: "T_c_nLvar".toList ++ '\t' :: "omega_c_nLvar".toList ++ '\t' :: "vw_nLvar".toList ++
    '\t' :: "LW_nLvar".toList ++ '\t' :: "z".toList ++ '\t' :: "z/LW".toList ++ '\t' :: "nL_VIA".toList ++
    '\t' :: "muL_FH".toList ++ '\t' :: "nL_FH".toList

/-- The profiles: the thickness of the wall, the grid with the densities (`set_up_nL_grid`) and the spline of the chemical
potential. -/
structure Profiles (K : Type) where
  lw : K
  grid : List K
  density : List K
  potential : K → K

/-- PlotEWBG_nL.cpp:194-202. -/
def nlRow [Field K] (fmt : K → Line) (line : Line) (tc vc vw : K) (p : Profiles K) (i : Nat) : Outcome Line := do
  let z ← at' p.grid i
  let n ← at' p.density i
  ok (line ++ '\t' :: fmt tc ++ '\t' :: fmt vc ++ '\t' :: fmt vw ++ '\t' :: fmt p.lw ++ '\t' :: fmt z ++
    '\t' :: fmt (z / p.lw) ++ '\t' :: fmt n ++ '\t' :: fmt (p.potential z) ++ '\t' :: fmt (p.potential z * tc ^ 2))

/-- PlotEWBG_nL.cpp:87-213 with the 100 rows of lines 154 and 192-203; an exception in a row cannot occur for the grid of 101
points, and what was written before is not kept here. -/
def plotNL [Field K] (fmt : K → Line) (vw : K) (steps : List Step) (find : Line → Transition K)
    (profiles : Line → Outcome (Profiles K)) : Result :=
  let head := headers nlHeader steps
  match point steps with
  | none => ⟨head, ok false⟩
  | some line =>
    let t := find line
    if t.success && t.strong then
      match profiles line >>= fun p => (List.range 100).mapM (nlRow fmt line t.tc t.vc vw p) with
      | ok rows => ⟨head ++ rows, ok true⟩
      | err e => ⟨head, err e⟩
      | ub u => ⟨head, ub u⟩
    else ⟨head ++ [noTransition], ok true⟩

/-- CreateMuGrid.cpp:102-147: `profile` is what lines 102-124 compute from the line, the end of the grid and the chemical
potential; whether a transition was found is not looked at. -/
def muGrid [Field K] (fmt : K → Line) (steps : List Step) (find : Line → Transition K)
    (profile : Line → Transition K → Outcome (K × (K → K))) : Result :=
  match point steps with
  | none => ⟨[], ok false⟩
  | some line =>
    match profile line (find line) with
    | ok p =>
      let step := (p.1 - 0) / 1000
      ⟨"z\tmu_{B_L}".toList :: (List.range 1001).map fun i : Nat =>
        fmt (0 + step * i) ++ '\t' :: fmt (p.2 (0 + step * i)), ok true⟩
    | err e => ⟨[], err e⟩
    | ub u => ⟨[], ub u⟩

end Verif.Batch.Ewbg
