import Verif.Minimizer.PlaneRuns

/-!
# Model of the whole search for the global minimum (`Minimizer.cpp`, `MinimizeNLOPT.cpp`,
`minimum_tracer.cpp`)

The searches of the libraries are parameters.
-/

set_option linter.unusedVariables false

namespace Verif.Minimizer.Whole

open Outcome
open Runs (Potential)
open PlaneRuns (NLopt)

variable {K : Type} [Field K] [LinearOrder K]

/-- `NLOPTVEff`, MinimizeNLOPT.cpp:22-29. -/
def nloptObjective (p : Potential K) (x : List K) : Outcome (Flt K) := do
  let o ← p.order x
  ok (p.veff o)

/-- The bounds, MinimizeNLOPT.cpp:39-51: the lower and the upper ones. -/
def bounds (nVEV : Nat) (tree : List K) : Outcome (List K × List K) :=
  (List.range nVEV).foldlM (fun b i => do
    let v ← at' tree i
    PlaneRuns.bound b i v) (List.replicate nVEV (-300), List.replicate nVEV 300)

/-- The success flag, MinimizeNLOPT.cpp:63-65 and 156-158: `SUCCESS` (1), `FTOL_REACHED` (3) or
`XTOL_REACHED` (4). -/
def success (code : Int) : Bool := decide (code = 1) || decide (code = 3) || decide (code = 4)

/-- The `try` and `catch`, MinimizeNLOPT.cpp:60-75 (`FORCED_STOP` is -5). -/
def caught : Outcome (List K × Flt K × Int) → Outcome (NLopt K)
  | .ok r => ok ⟨r.1, r.2.1, r.2.2, success r.2.2⟩
  | .err _ => ok ⟨[], .fin 0, -5, false⟩
  | .ub u => ub u

/-- `MinimizeUsingNLOPT`, MinimizeNLOPT.cpp:31-76.  `opt` is the search of the library: from the
objective, the bounds and the start vector it makes the point, the value and the code, or throws; the
exception is caught. -/
def nlopt (opt : (List K → Outcome (Flt K)) → List K → List K → List K → Outcome (List K × Flt K × Int))
    (p : Potential K) (tree : List K) : Outcome (NLopt K) := do
  let b ← bounds p.nVEV tree
  caught (opt (nloptObjective p) b.1 b.2 (List.replicate p.nVEV 0))

/-- `FindLocalMinimum`, MinimizeNLOPT.cpp:142-162.  `opt` is the search of the library from a start
vector. -/
def nloptLocal (opt : (List K → Outcome (Flt K)) → List K → Outcome (List K × Flt K × Int))
    (p : Potential K) (start : List K) : Outcome (NLopt K) := do
  let r ← opt (nloptObjective p) start
  ok ⟨r.1, r.2.1, r.2.2, success r.2.2⟩

/-- The searches: GSL for a number of solutions (`GSL_Minimize_gen_all`, see `Runs.globalMin`; with threads
the order of the solutions depends on the schedule), NLopt, and the evolution strategy. -/
structure Searches (K : Type) where
  gsl : Nat → Outcome (List K × Bool)
  opt : (List K → Outcome (Flt K)) → List K → List K → List K → Outcome (List K × Flt K × Int)
  strategy : (List K → Outcome (Flt K)) → List K → K → Outcome (List K × Int)

/-- The run of GSL, Minimizer.cpp:110-155. -/
def runGsl (s : Searches K) (use : Use) (mt : Bool) : Outcome (List K × Bool) :=
  match Runs.call use mt with
  | some (_, maxSol, _) => s.gsl maxSol
  | none => ok ([], false)

/-- The run of CMAES, Minimizer.cpp:156-172. -/
def runCmaes (s : Searches K) (p : Potential K) (start : List K) (use : Use) :
    Outcome (Option (List K × Int)) :=
  if use.cmaes then Outcome.bind (Runs.cmaes s.strategy p start) fun r => ok (some r) else ok none

/-- The run of NLopt, Minimizer.cpp:177-192. -/
def runNlopt (s : Searches K) (p : Potential K) (tree : List K) (use : Use) : Outcome (NLopt K) :=
  if use.nlopt then nlopt s.opt p tree else ok ⟨[], .fin 0, 0, false⟩

/-- A point with its potential, Minimizer.cpp:220-222 and 241-243. -/
def cand (p : Potential K) (x : List K) : Outcome (Cand (List K) K) := do
  let o ← p.order x
  ok ⟨x, p.veff o⟩

/-- The candidate of CMAES with its status, Minimizer.cpp:213-230. -/
def candCmaes (p : Potential K) (mt : Bool) : Option (List K × Int) → Outcome (List (Cand (List K) K × Int))
  | some (x, status) => if mt then Outcome.bind (cand p x) fun c => ok [(c, status)] else ok []
  | none => ok []

/-- The candidate of GSL, Minimizer.cpp:239-250. -/
def candGsl (p : Potential K) (g : List K × Bool) : Outcome (List (Cand (List K) K)) :=
  if g.2 then Outcome.bind (cand p g.1) fun c => ok [c] else ok []

/-- The candidates and what is appended to `Check` by CMAES, Minimizer.cpp:91-250, and whether GSL had
success.  The exceptions of the single searches end the function (or, in a thread, the program). -/
def collect (s : Searches K) (p : Potential K) (tree start : List K) (use : Use) (mt : Bool) :
    Outcome (Cand (List K) K × List (Cand (List K) K) × List Int × Bool) := do
  let g ← runGsl s use mt
  let c ← runCmaes s p start use
  let n ← runNlopt s p tree use
  let fromCmaes ← candCmaes p mt c
  let fromGsl ← candGsl p g
  ok (⟨List.replicate p.nVEV 0, p.veff (List.replicate p.nHiggs 0)⟩,
    (if n.success then [⟨n.minimum, n.value⟩] else []) ++ fromCmaes.map (·.1) ++ fromGsl,
    fromCmaes.map (·.2), g.2)

/-- The electroweak part of the chosen point, Minimizer.cpp:259-260. -/
def finish (p : Potential K) (setZero : List K → Outcome (List K)) (x o : List K) : Outcome (List K) :=
  if (p.ewsb o).le (.fin (1 / 2)) then setZero x else ok x

/-- `Minimize_gen_all`, Minimizer.cpp:83-269, with its searches: the point and what is appended to
`Check`. -/
def minimize (s : Searches K) (p : Potential K) (setZero : List K → Outcome (List K))
    (tree start : List K) (use : Use) (mt : Bool) : Outcome (List K × List Int) := do
  let c ← collect s p tree start (effective use p.nVEV) mt
  let o ← p.order (argmin c.1 c.2.1).point
  let sol ← finish p setZero (argmin c.1 c.2.1).point o
  ok (sol, c.2.2.1 ++ [if (effective use p.nVEV).gsl && c.2.2.2 then 1 else -1])

/-- `MinimumTracer::GetGlobalMinimum(Temp, check, start)`, minimum_tracer.cpp:1067-1079. -/
def globalMinimumFrom (s : Searches K) (p : Potential K) (setZero : List K → Outcome (List K))
    (tree start : List K) (use : Use) (mt : Bool) : Outcome (List K) := do
  let r ← minimize s p setZero tree start use mt
  p.order r.1

/-- `MinimumTracer::GetGlobalMinimum(Temp)`, minimum_tracer.cpp:1089-1093. -/
def globalMinimum (s : Searches K) (p : Potential K) (setZero : List K → Outcome (List K))
    (tree : List K) (use : Use) (mt : Bool) : Outcome (List K) :=
  globalMinimumFrom s p setZero tree (List.replicate p.nHiggs 0) use mt

/-- `Minimize_gen_all_tree_level`, Minimizer.cpp:426-444.  `pot` is the potential of the model with
`UseTreeLevel` on or off, at a temperature. -/
def treeLevel (s : Searches K) (pot : Bool → K → Potential K) (setZero : List K → Outcome (List K))
    (tree start : List K) (use : Use) (mt : Bool) : Outcome (List K × List Int) :=
  minimize s (pot true 0) setZero tree start use mt

end Verif.Minimizer.Whole
