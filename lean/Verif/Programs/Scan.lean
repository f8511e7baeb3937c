import Verif.Programs.Positional
import Verif.Programs.Options
import Verif.Flt

/-!
# Model of the options of the remaining programs, and of the loops over temperatures and wall velocities

A `double` is NaN or a rational number; `std::stod` is the parameter `stod`.
-/

namespace Verif.Programs.Scan

open Outcome
open Verif.Parser (Str Parser getValue getBool checkRequired)
open Positional (Prog)

/-- The members of `CLIOptions` for the minimisers, e.g. BSMPT.cpp:41-45. -/
structure Minimizers where
  gsl : Bool
  cmaes : Bool
  nlopt : Bool
  threads : Bool
  deriving DecidableEq

/-- The options for the minimisers with `get_value<bool>`: BSMPT.cpp:256-286, CalculateEWBG.cpp:270-300,
NLOVEV.cpp:205-235, PlotEWBG_nL.cpp:285-315, PlotEWBG_vw.cpp:208-238, Test.cpp:159-189, VEVEVO.cpp:221-251. -/
def readMinimizers (b : Built) (p : Parser) : Outcome Minimizers := do
  let gsl ← orDefault (getBool p "useGSL".toList) b.gsl
  let cmaes ← orDefault (getBool p "useCMAES".toList) b.cmaes
  let nlopt ← orDefault (getBool p "useNLopt".toList) b.nlopt
  let threads ← orDefault (getBool p "useMultithreading".toList) true
  ok ⟨gsl, cmaes, nlopt, threads⟩

/-- `struct CLIOptions` of all these programs together: BSMPT.cpp:35-49, CalcCT.cpp:29-42, CalculateEWBG.cpp:34-49,
NLOVEV.cpp:33-46, PlotEWBG_nL.cpp:32-47, PlotEWBG_vw.cpp:30-45, Test.cpp:34-47, TripleHiggsNLO.cpp:29-38,
VEVEVO.cpp:31-45.  Members that a program does not have keep the value given here. -/
structure Opts where
  modelSet : Bool
  input : Str
  output : Str := []
  config : Str := []
  first : Int := 0
  last : Int := 0
  line : Int := 0
  terminal : Bool := false
  min : Minimizers
  vw : Flt ℚ := .fin (1 / 10)
  vwMin : Flt ℚ := .fin 0
  vwMax : Flt ℚ := .fin 0
  vwStep : Flt ℚ := .fin 0
  tStart : Flt ℚ := .fin 0
  tStep : Flt ℚ := .fin 0
  tEnd : Flt ℚ := .fin 0
  deriving DecidableEq

/-- `TerminalOutput = (argparser.get_value("terminalOutput") == "y")`, e.g. BSMPT.cpp:247-254. -/
def readTerminal (p : Parser) : Outcome Bool :=
  orDefault (getValue p "terminalOutput".toList >>= fun s => ok (s == "y".toList)) false

/-- `get_value<double>(name)`, parser.h:122-125. -/
def number (stod : Str → Outcome (Flt ℚ)) (p : Parser) (name : String) : Outcome (Flt ℚ) :=
  getValue p name.toList >>= stod

/-- `get_value<int>(name)`, parser.h:114-117. -/
def integer (p : Parser) (name : String) : Outcome Int := getValue p name.toList >>= stoi

/-- The defaults of the minimisers, for programs without these options. -/
def Minimizers.default (b : Built) : Minimizers := ⟨b.gsl, b.cmaes, b.nlopt, true⟩

/-- The constructor of `CLIOptions`: BSMPT.cpp:239-289, CalcCT.cpp:114-130, CalculateEWBG.cpp:252-311,
NLOVEV.cpp:196-238, PlotEWBG_nL.cpp:267-318, PlotEWBG_vw.cpp:188-241, Test.cpp:152-192, TripleHiggsNLO.cpp:157-173,
VEVEVO.cpp:210-254.  The other programs have readers of their own and are not covered here. -/
def readOpts (stod : Str → Outcome (Flt ℚ)) (b : Built) (known : Str → Bool) (g : Prog) (p : Parser) :
    Outcome Opts := do
  checkRequired p
  let model ← getValue p "model".toList
  let input ← getValue p "input".toList
  match g with
  | .calcCT | .tripleHiggs =>
    let output ← getValue p "output".toList
    let first ← integer p "firstLine"
    let last ← integer p "lastLine"
    let terminal ← readTerminal p
    ok { modelSet := known model, input := input, output := output, first := first, last := last,
         terminal := terminal, min := .default b }
  | .bsmpt =>
    let output ← getValue p "output".toList
    let first ← integer p "firstLine"
    let last ← integer p "lastLine"
    let terminal ← readTerminal p
    let min ← readMinimizers b p
    ok { modelSet := known model, input := input, output := output, first := first, last := last,
         terminal := terminal, min := min }
  | .nlovev =>
    let output ← getValue p "output".toList
    let first ← integer p "firstLine"
    let last ← integer p "lastLine"
    let min ← readMinimizers b p
    ok { modelSet := known model, input := input, output := output, first := first, last := last, min := min }
  | .calculateEWBG =>
    let output ← getValue p "output".toList
    let first ← integer p "firstLine"
    let last ← integer p "lastLine"
    let config ← getValue p "config".toList
    let terminal ← readTerminal p
    let min ← readMinimizers b p
    let vw ← orDefault (number stod p "vw") (.fin (1 / 10))
    ok { modelSet := known model, input := input, output := output, config := config, first := first, last := last,
         terminal := terminal, min := min, vw := vw }
  | .plotNL =>
    let output ← getValue p "output".toList
    let line ← integer p "line"
    let vw ← number stod p "vw"
    let config ← getValue p "config".toList
    let terminal ← readTerminal p
    let min ← readMinimizers b p
    ok { modelSet := known model, input := input, output := output, config := config, line := line,
         terminal := terminal, min := min, vw := vw }
  | .plotVw =>
    let output ← getValue p "output".toList
    let line ← integer p "line"
    let config ← getValue p "config".toList
    let vwMin ← number stod p "vw_min"
    let vwMax ← number stod p "vw_max"
    let vwStep ← number stod p "vw_stepsize"
    let terminal ← readTerminal p
    let min ← readMinimizers b p
    ok { modelSet := known model, input := input, output := output, config := config, line := line,
         terminal := terminal, min := min, vwMin := vwMin, vwMax := vwMax, vwStep := vwStep }
  | .vevevo =>
    let output ← getValue p "output".toList
    let line ← integer p "line"
    let tStart ← number stod p "temperatureStart"
    let tEnd ← number stod p "temperatureEnd"
    let tStep ← number stod p "temperatureStep"
    let min ← readMinimizers b p
    ok { modelSet := known model, input := input, output := output, line := line, min := min,
         tStart := tStart, tStep := tStep, tEnd := tEnd }
  | _ =>
    let line ← integer p "line"
    let min ← readMinimizers b p
    ok { modelSet := known model, input := input, line := line, min := min }

/-- The tests of the minimisers: BSMPT.cpp:293-312, CalculateEWBG.cpp:315-334, NLOVEV.cpp:155-174,
PlotEWBG_nL.cpp:227-246, PlotEWBG_vw.cpp:245-264, Test.cpp:116-135, VEVEVO.cpp:164-183. -/
def checkMinimizers (b : Built) (m : Minimizers) : Outcome Unit :=
  if m.gsl = true ∧ b.gsl = false then err .runtime
  else if m.cmaes = true ∧ b.cmaes = false then err .runtime
  else if m.nlopt = true ∧ b.nlopt = false then err .runtime
  else if Minimizer.calcWhichMinimizer m.gsl m.cmaes m.nlopt = 0 then err .runtime
  else ok ()

/-- `vw <= 0 or vw > 1` throws: CalculateEWBG.cpp:335-338, PlotEWBG_nL.cpp:247-250. -/
def checkVw (vw : Flt ℚ) : Outcome Unit :=
  if Flt.le vw (.fin 0) || Flt.gt vw (.fin 1) then err .runtime else ok ()

/-- `x == 0` -/
def isZero : Flt ℚ → Bool
  | .nan => false
  | .fin x => decide (x = 0)

/-- The tests of the range of velocities, PlotEWBG_vw.cpp:265-277. -/
def checkVws (o : Opts) : Outcome Unit :=
  if Flt.le o.vwMin (.fin 0) || Flt.gt o.vwMin (.fin 1) || Flt.le o.vwMax (.fin 0) || Flt.gt o.vwMax (.fin 1) then
    err .runtime
  else if isZero o.vwStep then err .runtime
  else if Flt.gt o.vwMin o.vwMax then err .runtime
  else ok ()

/-- The tests of the range of temperatures, VEVEVO.cpp:184-197. -/
def checkTemps (o : Opts) : Outcome Unit :=
  if Flt.le o.tStep (.fin 0) then err .runtime
  else if Flt.lt o.tStart (.fin 0) then err .runtime
  else if Flt.lt o.tEnd o.tStart then err .runtime
  else ok ()

/-- `FirstLine < 1`, `FirstLine > LastLine`, e.g. BSMPT.cpp:323-333. -/
def goodLines (o : Opts) : Bool := if o.first < 1 then false else if o.first > o.last then false else true

/-- `Line < 1`, e.g. Test.cpp:144-149. -/
def goodLine (o : Opts) : Bool := if o.line < 1 then false else true

/-- `CLIOptions::good`: BSMPT.cpp:291-334, CalcCT.cpp:132-153, CalculateEWBG.cpp:313-359, NLOVEV.cpp:153-194,
PlotEWBG_nL.cpp:225-265, PlotEWBG_vw.cpp:243-293, Test.cpp:114-150, TripleHiggsNLO.cpp:174-196, VEVEVO.cpp:162-208. -/
def good (b : Built) (g : Prog) (o : Opts) : Outcome Bool :=
  match g with
  | .calcCT | .tripleHiggs => ok (if !o.modelSet then false else goodLines o)
  | .calculateEWBG => do
    checkMinimizers b o.min
    checkVw o.vw
    ok (if !o.modelSet then false else goodLines o)
  | .plotNL => do
    checkMinimizers b o.min
    checkVw o.vw
    ok (if !o.modelSet then false else goodLine o)
  | .plotVw => do
    checkMinimizers b o.min
    checkVws o
    ok (if !o.modelSet then false else goodLine o)
  | .vevevo => do
    checkMinimizers b o.min
    checkTemps o
    ok (if !o.modelSet then false else true)
  | .test => do
    checkMinimizers b o.min
    ok (if !o.modelSet then false else goodLine o)
  | _ => do
    checkMinimizers b o.min
    ok (if !o.modelSet then false else goodLines o)

/-- `x + y` -/
def add : Flt ℚ → Flt ℚ → Flt ℚ
  | .fin x, .fin y => .fin (x + y)
  | _, _ => .nan

/-- The values that a loop `for (x = start; x <= stop; x += step)` runs through, PlotEWBG_vw.cpp:154 and
VEVEVO.cpp:118-119; `none` when it does not end within `fuel` rounds. -/
def scan (step stop : Flt ℚ) : Nat → Flt ℚ → Option (List (Flt ℚ))
  | 0, _ => none
  | fuel + 1, x =>
    if Flt.le x stop then (scan step stop fuel (add x step)).map (x :: ·) else some []

/-- `a == b` -/
def eq : Flt ℚ → Flt ℚ → Bool
  | .fin a, .fin b => decide (a = b)
  | _, _ => false

/-- The loop over temperatures of VEVEVO.cpp:118-147: the search for the minimum starts at the tree-level minimum for
the first temperature and at the last minimum afterwards.  The result holds temperature, start point and minimum. -/
def evolve {V : Type} (minimize : Flt ℚ → V → V) (tree : V) (start : Flt ℚ) : List (Flt ℚ) → V → List (Flt ℚ × V × V)
  | [], _ => []
  | t :: ts, sol =>
    let s := if eq t start then tree else sol
    let m := minimize t s
    (t, s, m) :: evolve minimize tree start ts m

end Verif.Programs.Scan
