import Verif.Programs.Scan
import Verif.Models.Model

/-!
# Model of the command line of CreateMuGrid

This program does not use the parser of the others.  `std::stod` is the parameter `stod`, the table of names of the models
the parameter `names`.
-/

namespace Verif.Programs.MuGrid

open Outcome Verif.Utility
open Verif.Parser (Str Logger lower setLoggerArgs)
open Verif.Models (ModelID getModel)

/-- `struct CLIOptions`, CreateMuGrid.cpp:33-46. -/
structure Opts where
  model : ModelID
  line : Int
  input : Str
  output : Str
  vw : Flt ℚ
  gsl : Bool
  cmaes : Bool
  nlopt : Bool
  which : Int
  deriving DecidableEq

/-- The initial values of the members, CreateMuGrid.cpp:35-42. -/
def initial (b : Built) : Opts :=
  ⟨.notSet, 0, [], [], .fin (1 / 10), b.gsl, b.cmaes, b.nlopt, Minimizer.calcWhichMinimizer b.gsl b.cmaes b.nlopt⟩

/-- The text after a prefix: `el.substr(std::string(prefix).size())`. -/
def after (s : Str) (pre : String) : Str := s.drop pre.toList.length

/-- The body of the loop, CreateMuGrid.cpp:225-263; the second component is `UnusedArgs`. -/
def namedArg (stod : Str → Outcome (Flt ℚ)) (names : List (Str × ModelID)) (s : Opts × List Str) (arg : Str) :
    Outcome (Opts × List Str) :=
  let el := lower arg
  if stringStartsWith el "--model=".toList then
    ok ({ s.1 with model := getModel names (after el "--model=") }, s.2)
  else if stringStartsWith el "--input=".toList then ok ({ s.1 with input := after arg "--input=" }, s.2)
  else if stringStartsWith el "--output=".toList then ok ({ s.1 with output := after arg "--output=" }, s.2)
  else if stringStartsWith el "--line=".toList then do
    let n ← stoi (after el "--line=")
    ok ({ s.1 with line := n }, s.2)
  else if stringStartsWith el "--vw=".toList then do
    let v ← stod (after el "--vw=")
    ok ({ s.1 with vw := v }, s.2)
  else if stringStartsWith el "--usegsl=".toList then
    ok ({ s.1 with gsl := after el "--usegsl=" == "true".toList }, s.2)
  else if stringStartsWith el "--usecmaes=".toList then
    ok ({ s.1 with cmaes := after el "--usecmaes=" == "true".toList }, s.2)
  else if stringStartsWith el "--usenlopt=".toList then
    ok ({ s.1 with nlopt := after el "--usenlopt=" == "true".toList }, s.2)
  else ok (s.1, s.2 ++ [el])

/-- A call with names, CreateMuGrid.cpp:220-267. -/
def named (stod : Str → Outcome (Flt ℚ)) (names : List (Str × ModelID)) (b : Built) (args : List Str) (lg : Logger) :
    Outcome (Opts × Logger) := do
  let r ← args.foldlM (namedArg stod names) (initial b, [])
  let o := { r.1 with which := Minimizer.calcWhichMinimizer r.1.gsl r.1.cmaes r.1.nlopt }
  let lg ← setLoggerArgs r.2 lg
  ok (o, lg)

/-- A call without names, CreateMuGrid.cpp:270-273. -/
def plain (names : List (Str × ModelID)) (b : Built) (args : List Str) : Outcome Opts := do
  let model ← at' args 0
  let input ← at' args 1
  let output ← at' args 2
  let text ← at' args 3
  let line ← stoi text
  ok { initial b with model := getModel names model, input := input, output := output, line := line }

/-- How the constructor of `CLIOptions` ends: with `throw int{0}`, after which `main` returns `EXIT_SUCCESS`, or otherwise. -/
inductive Begin where
  | help
  | run (r : Outcome (Opts × Logger))

/-- The constructor of `CLIOptions`, CreateMuGrid.cpp:159-275; `args` are the arguments without the name of the program. -/
def start (stod : Str → Outcome (Flt ℚ)) (names : List (Str × ModelID)) (b : Built) (args : List Str) (lg : Logger) : Begin :=
  match args with
  | [] => .run (err .runtime)
  | first :: rest =>
    if first = "--help".toList then .help
    else if rest.length + 2 < 5 then .run (err .runtime)
    else if stringStartsWith first "--".toList then .run (named stod names b args lg)
    else .run (plain names b args >>= fun o => ok (o, lg))

/-- `CLIOptions::good`, CreateMuGrid.cpp:277-319. -/
def good (b : Built) (o : Opts) : Outcome Bool :=
  if o.gsl && !b.gsl then err .runtime
  else if o.cmaes && !b.cmaes then err .runtime
  else if o.nlopt && !b.nlopt then err .runtime
  else if o.which == 0 then err .runtime
  else if Flt.le o.vw (.fin 0) || Flt.gt o.vw (.fin 1) then err .runtime
  else if o.model = .notSet then ok false
  else if o.line < 1 then ok false
  else ok true

end Verif.Programs.MuGrid
