import Verif.Minimizer.Model

/-!
# Model of the single runs of the minimizers (`MinimizeGSL.cpp`, `LibCMAES/MinimizeLibCMAES.cpp`)

The simplex algorithm of GSL and the evolution strategy of libcmaes are parameters.
-/

set_option linter.unusedVariables false

namespace Verif.Minimizer.Runs

open Outcome

variable {S K : Type} [Field K] [LinearOrder K]

/-! ## One run of the simplex algorithm -/

/-- `gsl_multimin_fminimizer`, as far as it is used: the state made from a start vector
(`gsl_multimin_fminimizer_set`, with steps 1), one iteration with its status, the size of the simplex
and the coordinates of the best point. -/
structure Simplex (S K : Type) where
  init : List K → S
  iterate : S → S × Int
  size : S → K
  x : S → Nat → K

/-- `gsl_multimin_test_size` of GSL: `GSL_EBADTOL` (13), `GSL_SUCCESS` (0) or `GSL_CONTINUE` (-2). -/
def testSize (size tol : K) : Int :=
  if tol < 0 then 13 else if size < tol then 0 else -2

/-- The loop MinimizeGSL.cpp:96-106.  The first argument is the number of iterations that are still
allowed after the present one. -/
def loop (m : Simplex S K) (tol : K) : Nat → S → S × Int
  | left, s =>
    let r := m.iterate s
    if r.2 ≠ 0 then r
    else
      let status := testSize (m.size r.1) tol
      if status = -2 then
        match left with
        | 0 => (r.1, status)
        | left' + 1 => loop m tol left' r.1
      else (r.1, status)

/-- `GSL_Tolerance`, MinimizeGSL.h:28. -/
def tolerance : K := 1 / 10 ^ 4

/-- `GSL_Minimize_From_S_gen_all`, MinimizeGSL.cpp:61-124: the vector `sol` afterwards and the status.
`MaxIter` is 600 (line 74). -/
def fromStart (m : Simplex S K) (dim : Nat) (sol start : List K) : Outcome (List K × Int) := do
  let x ← (List.range dim).mapM (at' start)
  let r := loop m tolerance (600 - 1) (m.init x)
  if r.2 = 0 then ok (sol ++ (List.range dim).map (m.x r.1), r.2)
  else ok (sol ++ List.replicate dim 0, r.2)

/-! ## The search from many start points, without threads -/

/-- The queue of start points, MinimizeGSL.cpp:164-183.  `rnd n` is the `n`-th number that
`std::generate_canonical` delivers. -/
def startPoints (rnd : Nat → K) (dim : Nat) : List (List K) :=
  (List.range 600).map fun i => (List.range dim).map fun j => 500 * (-1 + 2 * rnd (i * dim + j))

/-- `thread_Job` with `UseLock = false`, MinimizeGSL.cpp:197-231 as called in lines 257-263. -/
def job (run : List K → Outcome (List K × Int)) (maxSol : Nat) :
    List (List K) → (found : Nat) → (results : List (List K)) → Outcome (List (List K))
  | [], _, results => ok results
  | s :: queue, found, results =>
    if found < maxSol then do
      let r ← run s
      if r.2 = 0 then job run maxSol queue (found + 1) (results ++ [r.1])
      else job run maxSol queue found results
    else ok results

/-- A row of `saveAllMinima`: the point, its electroweak VEV and its potential value. -/
structure Row (K : Type) where
  point : List K
  vev : Flt K
  value : Flt K

/-- What the search needs from the model at the given temperature: `MinimizeOrderVEV`, `EWSBVEV` and
`VEff`. -/
structure Potential (K : Type) where
  nVEV : Nat
  nHiggs : Nat
  order : List K → Outcome (List K)
  ewsb : List K → Flt K
  veff : List K → Flt K

/-- The rows made from the results, MinimizeGSL.cpp:266-277. -/
def row (p : Potential K) (res : List K) : Outcome (Row K) := do
  let vpot ← p.order res
  let xs ← (List.range p.nVEV).mapM (at' res)
  ok ⟨xs, p.ewsb vpot, p.veff vpot⟩

/-- The loop MinimizeGSL.cpp:295-304 over the indices `k`, starting with `VMin` and `minIndex`. -/
def lowest (minIndex : Nat) (vMin : Flt K) : (k : Nat) → List (Row K) → Nat
  | _, [] => minIndex
  | k, r :: rs => if r.value.le vMin then lowest k r.value (k + 1) rs else lowest minIndex vMin (k + 1) rs

/-- The end of `GSL_Minimize_gen_all`, MinimizeGSL.cpp:279-309. -/
def choose (dim : Nat) (rows : List (Row K)) : Outcome (List K × Bool) :=
  match rows with
  | [] => ok ([], false)
  | r :: rs => do
    let best ← idx (r :: rs) (lowest 0 r.value 1 rs)
    let solV ← (List.range dim).mapM (idx best.point)
    ok (solV, true)

/-- `GSL_Minimize_gen_all` with `saveAllMinima`, MinimizeGSL.cpp:152-310, without threads.  `saved` is
`saveAllMinima` at the start. -/
def globalMin (m : Simplex S K) (p : Potential K) (rnd : Nat → K) (maxSol : Nat)
    (saved : List (Row K)) : Outcome (List (Row K) × List K × Bool) := do
  let results ← job (fromStart m p.nVEV []) maxSol (startPoints rnd p.nVEV) 0 []
  let rows ← results.mapM (row p)
  let r ← choose p.nVEV (saved ++ rows)
  ok (saved ++ rows, r)

/-- The calls in `Minimize_gen_all`, Minimizer.cpp:114-155: the seed, the number of solutions and
whether threads are used.  The overload with a `bool` as fourth argument asks for 20 solutions
(MinimizeGSL.cpp:139-150), its default for the threads is `true` (MinimizeGSL.h:73); the overload with
`MaxSol` has the default `true` as well (MinimizeGSL.h:94). -/
def call (use : Use) (multithreading : Bool) : Option (Int × Nat × Bool) :=
  if use.gsl then
    if use.cmaes || use.nlopt then
      if multithreading then some (5, 20, true) else some (5, 20, multithreading)
    else
      if multithreading then some (5, 50, true) else some (5, 50, multithreading)
  else none

/-! ## The evolution strategy -/

/-- `cmafunc`, MinimizeLibCMAES.cpp:57-66.  `v` is the array of candidates that the library passes,
which has as many entries as the start vector. -/
def objective (p : Potential K) (v : List K) : Outcome (Flt K) := do
  let vev ← (List.range p.nVEV).mapM (idx v)
  let o ← p.order vev
  ok (p.veff o)

/-- `min_cmaes_gen_all`, MinimizeLibCMAES.cpp:33-86.  `strategy` is `cmaes<>` of the library: from the
objective, the start vector and the width (5) it makes the best candidate and the status, or fails
as the objective fails. -/
def cmaes (strategy : (List K → Outcome (Flt K)) → List K → K → Outcome (List K × Int))
    (p : Potential K) (start : List K) : Outcome (List K × Int) := do
  let r ← strategy (objective p) start 5
  let sol ← (List.range p.nVEV).mapM (at' r.1)
  ok (sol, r.2)

/-- The start vector of `MinimumTracer::GetGlobalMinimum(Temp)`, minimum_tracer.cpp:1089-1093. -/
def tracerStart (p : Potential K) : List K := List.replicate p.nHiggs 0

end Verif.Minimizer.Runs
