import Verif.Parser.Model
import Verif.Minimizer.Model
import Mathlib.Data.Rat.Defs
import Mathlib.Algebra.Order.Field.Rat

/-!
# Model of the options of `CalcTemps` and `CalcGW`

Floating-point options are rational numbers; `std::stod` is the parameter `stod`.
-/

namespace Verif.Programs

open Outcome Verif.Parser

/-- The digits at the start of a text, as `std::stoi` reads them: their value and whether there was any. -/
def readDigits : List Char → Int → Bool → Int × Bool
  | [], n, b => (n, b)
  | c :: l, n, b => if c.isDigit then readDigits l (n * 10 + (c.toNat - 48 : Nat)) true else (n, b)

/-- White space in the sense of `isspace`. -/
def isSpace (c : Char) : Bool :=
  c == ' ' || c == '\t' || c == '\n' || c == '\x0b' || c == '\x0c' || c == '\r'

/-- The optional sign of a number: whether it is negative, and the rest. -/
def readSign : List Char → Bool × List Char
  | [] => (false, [])
  | c :: l => if c = '-' then (true, l) else if c = '+' then (false, l) else (false, c :: l)

/-- `std::stoi` with base 10: leading white space, an optional sign, then digits; anything after them is
ignored. -/
def stoi (s : List Char) : Outcome Int :=
  let r := readSign (s.dropWhile isSpace)
  match readDigits r.2 0 false with
  | (_, false) => err .invalidArgument
  | (n, true) =>
    let n := if r.1 then -n else n
    if -2147483648 ≤ n ∧ n ≤ 2147483647 then ok n else err .outOfRange

/-- `try { x = ...; } catch (parserException &) {}`: the default is kept when the option was not given,
any other exception gets through. -/
def orDefault {α : Type} (r : Outcome α) (d : α) : Outcome α :=
  match r with
  | .err .parser => ok d
  | r => r

/-- `--multistepmode`, CalcTemps.cpp:428-448. -/
def multistep (p : Parser) : Outcome Int :=
  orDefault (getValue p "multistepmode".toList >>= fun s =>
    if s = "default".toList then ok (-1)
    else if s = "auto".toList then ok 3
    else stoi s) (-1)

/-- `--checknlo`, CalcTemps.cpp:489-505: any other text leaves the default. -/
def checkNLO (p : Parser) : Outcome Int :=
  orDefault (getValue p "checknlo".toList >>= fun s =>
    if s = "on".toList then ok 1 else if s = "off".toList then ok 0 else ok 1) 1

/-- `--checkewsr`, CalcTemps.cpp:508-532. -/
def checkEWSR (p : Parser) : Outcome Int :=
  orDefault (getValue p "checkewsr".toList >>= fun s =>
    if s = "on".toList then ok 1
    else if s = "off".toList then ok 0
    else if s = "keep_bfb".toList then ok 2
    else if s = "keep_ewsr".toList then ok 3
    else ok 1) 1

/-- `--trans_temp`, CalcGW.cpp:512-535. -/
def transTemp (p : Parser) : Outcome Int :=
  orDefault (getValue p "trans_temp".toList >>= fun s =>
    if s = "nucl_approx".toList then ok 1
    else if s = "nucl".toList then ok 2
    else if s = "perc".toList then ok 3
    else if s = "compl".toList then ok 4
    else ok 3) 3

/-- An option read with `get_value<double>`. -/
def doubleOpt (stod : List Char → Outcome ℚ) (p : Parser) (name : String) (d : ℚ) : Outcome ℚ :=
  orDefault (getValue p name.toList >>= stod) d

/-- An option read with `get_value<int>`. -/
def intOpt (p : Parser) (name : String) (d : Int) : Outcome Int :=
  orDefault (getValue p name.toList >>= stoi) d

/-- `get_value(...) == "true"`, e.g. CalcTemps.cpp:396-403. -/
def flagOpt (p : Parser) (name : String) (d : Bool) : Outcome Bool :=
  orDefault (getValue p name.toList >>= fun s => ok (s == "true".toList)) d

/-- `struct CLIOptions`, CalcTemps.cpp:31-51 and CalcGW.cpp:31-53. -/
structure Options where
  modelSet : Bool
  firstline : Int
  lastline : Int
  templow : ℚ := 0
  temphigh : ℚ := 300
  vwall : ℚ := 95 / 100
  epsturb : ℚ := 1 / 10
  maxPath : Int := 7
  useGSL : Bool
  useCMAES : Bool
  useNLopt : Bool
  multithreading : Bool := false
  multistep : Int := -1
  ewsr : Int := 1
  perc : ℚ := 71 / 100
  compl : ℚ := 1 / 100
  numPts : Int := 10
  nlo : Int := 1
  trans : Int := 3

/-- Which minimisers were found at compile time. -/
structure Built where
  gsl : Bool
  cmaes : Bool
  nlopt : Bool

/-- The constructor of `CLIOptions`, CalcTemps.cpp:367-544 and CalcGW.cpp:398-609.  `modelSet` tells
whether the name of the model is known (see C10).  `CalcTemps` has no `trans_temp` and no `epsturb`. -/
def readOptions (stod : List Char → Outcome ℚ) (gw : Bool) (built : Built) (modelSet : List Char → Bool)
    (p : Parser) : Outcome Options := do
  checkRequired p
  let model ← getValue p "model".toList
  let _ ← getValue p "input".toList
  let _ ← getValue p "output".toList
  let first ← getValue p "firstline".toList >>= stoi
  let last ← getValue p "lastline".toList >>= stoi
  let thigh ← doubleOpt stod p "thigh" 300
  let gsl ← flagOpt p "usegsl" built.gsl
  let cmaes ← flagOpt p "usecmaes" built.cmaes
  let nlopt ← flagOpt p "usenlopt" built.nlopt
  let mt ← flagOpt p "usemultithreading" false
  let ms ← multistep p
  let pts ← intOpt p "num_pts" 10
  let vw ← doubleOpt stod p "vwall" (95 / 100)
  let perc ← doubleOpt stod p "perc_prbl" (71 / 100)
  let comp ← doubleOpt stod p "compl_prbl" (1 / 100)
  let nlo ← checkNLO p
  let ewsr ← checkEWSR p
  let trans ← (if gw then transTemp p else ok 3)
  let eps ← (if gw then doubleOpt stod p "epsturb" (1 / 10) else ok (1 / 10))
  let mpi ← intOpt p "maxpathintegrations" 7
  ok { modelSet := modelSet model, firstline := first, lastline := last, temphigh := thigh, vwall := vw,
       epsturb := eps, maxPath := mpi, useGSL := gsl, useCMAES := cmaes, useNLopt := nlopt,
       multithreading := mt, multistep := ms, ewsr := ewsr, perc := perc, compl := comp, numPts := pts,
       nlo := nlo, trans := trans }

/-- The part of `good` that throws, CalcTemps.cpp:268-290. -/
def minimizersOk (built : Built) (o : Options) : Outcome Unit :=
  if o.useGSL = true ∧ built.gsl = false then err .runtime
  else if o.useCMAES = true ∧ built.cmaes = false then err .runtime
  else if o.useNLopt = true ∧ built.nlopt = false then err .runtime
  else if Minimizer.calcWhichMinimizer o.useGSL o.useCMAES o.useNLopt = 0 then err .runtime
  else ok ()

/-- `CLIOptions::good` of `CalcTemps`, CalcTemps.cpp:268-365. -/
def goodTemps (built : Built) (o : Options) : Outcome Bool := do
  minimizersOk built o
  ok (if !o.modelSet then false
    else if o.firstline = 0 ∨ o.lastline = 0 then false
    else if o.firstline < 0 ∨ o.lastline < 0 then false
    else if o.firstline > o.lastline then false
    else if o.templow ≥ o.temphigh then false
    else if (o.vwall ≠ -1 ∧ o.vwall ≠ -2) ∧ (o.vwall ≤ 0 ∨ o.vwall > 1) then false
    else if o.multistep > 3 ∨ o.multistep < -1 then false
    else if o.numPts < 0 then false
    else if o.ewsr > 2 ∨ o.ewsr < 0 then false
    else if o.nlo < 0 ∨ o.nlo > 1 then false
    else if o.perc < 0 ∨ o.perc > 1 then false
    else if o.compl < 0 ∨ o.compl > 1 then false
    else true)

/-- `CLIOptions::good` of `CalcGW`, CalcGW.cpp:288-390.  (The last test, of the transition temperature,
only writes a message.) -/
def goodGW (built : Built) (o : Options) : Outcome Bool := do
  minimizersOk built o
  ok (if !o.modelSet then false
    else if o.firstline = 0 ∨ o.lastline = 0 then false
    else if o.firstline > o.lastline then false
    else if o.templow > o.temphigh then false
    else if (o.vwall ≠ -1 ∧ o.vwall ≠ -2) ∧ (o.vwall ≤ 0 ∨ o.vwall > 1) then false
    else if o.epsturb ≠ -1 ∧ (o.epsturb < 0 ∨ o.epsturb > 1) then false
    else if o.multistep > 3 ∨ o.multistep < -1 then false
    else if o.numPts < 0 then false
    else if o.ewsr > 3 ∨ o.ewsr < 0 then false
    else if o.nlo < 0 ∨ o.nlo > 1 then false
    else if o.perc < 0 ∨ o.perc > 1 then false
    else if o.compl < 0 ∨ o.compl > 1 then false
    else true)

end Verif.Programs
