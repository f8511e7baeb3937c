import Verif.Batch.Legend
import Verif.Programs.Options

/-!
# The program `MinimaTracer`

src/prog/MinimaTracer.cpp: its options and the table it writes about one parameter point.  Numbers and states are given by
the text that `operator<<` makes of them.
-/

namespace Verif.Batch.Minima

open Outcome
open Programs (Options Built orDefault multistep doubleOpt intOpt flagOpt stoi minimizersOk)
open Verif.Parser (Parser getValue checkRequired)

/-- A member of `MinimumPhaseVector` as it is written, MinimaTracer.cpp:235-240. -/
structure Minimum where
  temp : List Char
  point : List (List Char)
  potential : List Char

/-- `std::to_string` of an unsigned number. -/
def number (n : Nat) : List Char := Nat.toDigits 10 n

/-- The names for one phase, MinimaTracer.cpp:181-187. -/
def phaseNames (names : List (List Char)) (nVEV i : Nat) : Outcome (List (List Char)) := do
  let vevs ← (List.range nVEV).mapM fun j => do
    let s ← at' names j
    ok (s ++ ("(Temp_".toList ++ number i ++ ")".toList))
  ok (("Temp_".toList ++ number i) :: vevs ++ ["Veff(Temp_".toList ++ number i ++ ")".toList])

/-- `LegendMinima`, MinimaTracer.cpp:175-189. -/
def legendMinima (names : List (List Char)) (nVEV phases : Nat) : Outcome (List (List Char)) := do
  let blocks ← (List.range phases).mapM fun i => phaseNames names nVEV i
  ok (["status_nlo_stability".toList, "status_ewsr".toList, "status_tracing".toList] ++ blocks.flatten ++
    ["runtime".toList])

/-- The header, MinimaTracer.cpp:190-191. -/
def header (legendCT names : List (List Char)) (nVEV phases : Nat) (line1 : List Char) : Outcome (List Char) := do
  let legend ← legendMinima names nVEV phases
  ok (line1 ++ sepVec legendCT ++ sepVec legend)

/-- The number of rows with minima, MinimaTracer.cpp:193-204. -/
def longest (phases : List (List Minimum)) : Nat :=
  phases.foldl (fun length p =>
    if length = 0 then p.length else if length < p.length then p.length else length) 0

/-- What the program has found out about the point. -/
structure Result where
  /-- `parameters.second` -/
  ct : List (List Char)
  nlo : List Char
  ewsr : List Char
  tracing : List Char
  phases : List (List Minimum)
  /-- the time written in the row with this number -/
  time : Nat → List Char

/-- The start of each row, MinimaTracer.cpp:209-213 and 226-230. -/
def start (line : List Char) (r : Result) : List Char :=
  line ++ sepVec r.ct ++ ('\t' :: r.nlo) ++ ('\t' :: r.ewsr) ++ ('\t' :: r.tracing)

/-- The cells of one phase, MinimaTracer.cpp:231-248. -/
def phaseCells (nVEV i : Nat) (p : List Minimum) : Outcome (List Char) :=
  if i < p.length then do
    let m ← at' p i
    ok (('\t' :: m.temp) ++ sepVec m.point ++ ('\t' :: m.potential))
  else ok (sepVec (List.replicate (2 + nVEV) "nan".toList))

/-- One row, MinimaTracer.cpp:225-256. -/
def row (nVEV : Nat) (line : List Char) (r : Result) (i : Nat) : Outcome (List Char) := do
  let cells ← r.phases.mapM fun p => phaseCells nVEV i p
  ok (start line r ++ cells.flatten ++ ('\t' :: r.time i))

/-- The lines of the file, MinimaTracer.cpp:190-257. -/
def table (legendCT names : List (List Char)) (nVEV : Nat) (line1 line : List Char) (r : Result) :
    Outcome (List (List Char)) := do
  let h ← header legendCT names nVEV r.phases.length line1
  let rows ← (List.range (longest r.phases)).mapM fun i => row nVEV line r i
  ok (h :: ((if longest r.phases = 0 then [start line r ++ ('\t' :: r.time 0)] else []) ++ rows))

/-! ## Options -/

/-- `--checkewsr`, MinimaTracer.cpp:451-467: any other text leaves the default. -/
def checkEWSR (p : Parser) : Outcome Int :=
  orDefault (getValue p "checkewsr".toList >>= fun s =>
    if s = "on".toList then ok 1 else if s = "off".toList then ok 0 else ok 1) 1

/-- The constructor of `CLIOptions`, MinimaTracer.cpp:358-472. -/
def readOptions (stod : List Char → Outcome ℚ) (built : Built) (modelSet : List Char → Bool) (p : Parser) :
    Outcome Options := do
  checkRequired p
  let model ← getValue p "model".toList
  let _ ← getValue p "input".toList
  let _ ← getValue p "output".toList
  let first ← getValue p "firstline".toList >>= stoi
  let last ← getValue p "lastline".toList >>= stoi
  let thigh ← doubleOpt stod p "thigh" 300
  let gsl ← flagOpt p "usegsl" built.gsl
  let cmaes ← flagOpt p "usecmaes" built.cmaes
  let nlopt ← flagOpt p "usenlopt" built.nlopt
  let mt ← flagOpt p "usemultithreading" false
  let ms ← multistep p
  let pts ← intOpt p "num_pts" 10
  let ewsr ← checkEWSR p
  ok { modelSet := modelSet model, firstline := first, lastline := last, temphigh := thigh, useGSL := gsl,
       useCMAES := cmaes, useNLopt := nlopt, multithreading := mt, multistep := ms, ewsr := ewsr, numPts := pts }

/-- `CLIOptions::good`, MinimaTracer.cpp:285-356. -/
def good (built : Built) (o : Options) : Outcome Bool := do
  minimizersOk built o
  ok (if !o.modelSet then false
    else if o.firstline = 0 ∨ o.lastline = 0 then false
    else if o.firstline < 0 ∨ o.lastline < 0 then false
    else if o.firstline > o.lastline then false
    else if o.templow ≥ o.temphigh then false
    else if o.multistep > 3 ∨ o.multistep < -1 then false
    else if o.numPts < 0 then false
    else if o.ewsr > 2 ∨ o.ewsr < 0 then false
    else true)

end Verif.Batch.Minima
