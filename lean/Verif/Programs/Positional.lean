import Verif.Parser.Model

/-!
# Model of the command lines of the programs: `prepare_parser` and `convert_input`
-/

namespace Verif.Programs.Positional

open Outcome Verif.Utility
open Verif.Parser (Str Parser Logger addArgument addInput checkRequired)

/-- The programs with a parser, `src/prog`. -/
inductive Prog where
  | bsmpt | calcCT | calcGW | calcTemps | calculateEWBG | minimaTracer | nlovev | plotNL | plotVw
  | potPlotter | test | tripleHiggs | vevevo
  deriving DecidableEq, Repr

/-- `parser::parser()`, parser.cpp:30-56. -/
def plainOptions : List String :=
  ["logginglevel::default", "logginglevel::debug", "logginglevel::disabled", "logginglevel::ewbgdetailed",
   "logginglevel::progdetailed", "logginglevel::minimizerdetailed", "json"]

/-- `parser::parser(const bool &)`, parser.cpp:58-93. -/
def columnOptions : List String :=
  ["logginglevel::default", "logginglevel::debug", "logginglevel::disabled", "logginglevel::ewbgdetailed",
   "logginglevel::progdetailed", "logginglevel::minimizerdetailed", "logginglevel::transitiondetailed",
   "logginglevel::mintracerdetailed", "logginglevel::bouncedetailed", "logginglevel::gwdetailed",
   "logginglevel::complete"]

/-- `parser::enable_minimizer_options`, parser.cpp:95-109. -/
def minimizerOptions : List String := ["useGSL", "useCMAES", "useNLopt", "useMultithreading"]

/-- The arguments declared as required in `prepare_parser`: BSMPT.cpp:339-349, CalcCT.cpp:158-168,
CalcGW.cpp:610-617, CalcTemps.cpp:550-557, CalculateEWBG.cpp:364-375, MinimaTracer.cpp:478-485, NLOVEV.cpp:243-253,
PlotEWBG_nL.cpp:323-335, PlotEWBG_vw.cpp:298-311, PotPlotter.cpp:650-655, Test.cpp:197-203,
TripleHiggsNLO.cpp:201-211, VEVEVO.cpp:259-277. -/
def required : Prog → List String
  | .bsmpt | .calcCT | .nlovev | .tripleHiggs => ["model", "input", "output", "firstLine", "lastLine"]
  | .calcGW | .calcTemps | .minimaTracer => ["model", "input", "output", "firstline", "lastline"]
  | .calculateEWBG => ["model", "input", "output", "firstLine", "lastLine", "config"]
  | .plotNL => ["model", "input", "output", "line", "vw", "config"]
  | .plotVw => ["model", "input", "output", "line", "config", "vw_min", "vw_max", "vw_stepsize"]
  | .potPlotter => ["model", "input", "output", "line", "temperature"]
  | .test => ["model", "input", "line"]
  | .vevevo => ["model", "input", "output", "line", "temperatureStart", "temperatureStep", "temperatureEnd"]

/-- The optional arguments: BSMPT.cpp:350-364, CalcCT.cpp:169-173, CalcGW.cpp:609-678, CalcTemps.cpp:549-608,
CalculateEWBG.cpp:376-397, MinimaTracer.cpp:477-517, NLOVEV.cpp:254-267, PlotEWBG_nL.cpp:336-354,
PlotEWBG_vw.cpp:313-330, PotPlotter.cpp:649-689, Test.cpp:214, TripleHiggsNLO.cpp:212-216, VEVEVO.cpp:278-295,
after those of the constructor. -/
def optional : Prog → List String
  | .bsmpt | .nlovev | .plotNL | .plotVw | .vevevo => plainOptions ++ ["terminalOutput"] ++ minimizerOptions
  | .calcCT | .tripleHiggs => plainOptions ++ ["terminalOutput"]
  | .calculateEWBG => plainOptions ++ ["terminalOutput", "vw"] ++ minimizerOptions
  | .test => plainOptions ++ minimizerOptions
  | .calcGW => columnOptions ++
      ["help", "thigh", "multistepmode", "num_pts", "vwall", "perc_prbl", "compl_prbl", "trans_temp", "epsturb",
       "checknlo", "checkewsr", "maxpathintegrations", "usegsl", "usecmaes", "usenlopt", "usemultithreading",
       "json"]
  | .calcTemps => columnOptions ++
      ["help", "thigh", "multistepmode", "num_pts", "vwall", "perc_prbl", "compl_prbl", "checknlo", "checkewsr",
       "maxpathintegrations", "usegsl", "usecmaes", "usenlopt", "usemultithreading", "json"]
  | .minimaTracer => columnOptions ++
      ["help", "thigh", "multistepmode", "num_pts", "checkewsr", "usegsl", "usecmaes", "usenlopt",
       "usemultithreading", "json"]
  | .potPlotter => columnOptions ++
      ["help", "point", "npoints1", "npoints2", "npoints3", "npoints4", "npoints5", "npoints6",
       "low1", "low2", "low3", "low4", "low5", "low6", "high1", "high2", "high3", "high4", "high5", "high6",
       "slice", "min_start", "min_end", "npoints", "json"]

/-- `prepare_parser`: BSMPT.cpp:336-367, CalcCT.cpp:155-185, CalcGW.cpp:606-690, CalcTemps.cpp:546-621,
CalculateEWBG.cpp:361-400, MinimaTracer.cpp:474-529, NLOVEV.cpp:240-270, PlotEWBG_nL.cpp:320-357,
PlotEWBG_vw.cpp:295-333, PotPlotter.cpp:646-701, Test.cpp:194-217, TripleHiggsNLO.cpp:198-228, VEVEVO.cpp:256-298.
The texts for the help are not modelled. -/
def prepare (g : Prog) : Parser :=
  let p := (required g).foldl (fun p n => addArgument p n.toList true) ⟨[], [], false⟩
  (optional g).foldl (fun p n => addArgument p n.toList false) p

/-- The names put before the arguments of a call without option names, in `convert_input`:
BSMPT.cpp:387-406, CalcCT.cpp:205-224, CalcGW.cpp:710-729, CalcTemps.cpp:641-660, CalculateEWBG.cpp:420-443,
MinimaTracer.cpp:549-568, NLOVEV.cpp:290-309, PlotEWBG_nL.cpp:377-400, PlotEWBG_vw.cpp:353-384, Test.cpp:237-248,
TripleHiggsNLO.cpp:248-267, VEVEVO.cpp:318-345; none in PotPlotter.cpp:703-719. -/
def names : Prog → List String
  | .bsmpt | .calcCT | .nlovev | .tripleHiggs => ["model", "input", "output", "firstLine", "lastLine"]
  | .calcGW | .calcTemps | .minimaTracer => ["model", "input", "output", "firstline", "lastline"]
  | .calculateEWBG => ["model", "input", "output", "firstLine", "lastLine", "config"]
  | .plotNL => ["model", "input", "output", "line", "vw", "config"]
  | .plotVw => ["model", "input", "output", "line", "vw_min", "vw_stepsize", "vw_max", "config"]
  | .potPlotter => []
  | .test => ["model", "input", "line"]
  | .vevevo => ["model", "input", "output", "line", "temperatureStart", "temperatureStep", "temperatureEnd"]

/-- `convert_input`: BSMPT.cpp:369-409, CalcCT.cpp:187-227, CalcGW.cpp:692-731, CalcTemps.cpp:623-662,
CalculateEWBG.cpp:402-446, MinimaTracer.cpp:531-570, NLOVEV.cpp:272-312, PlotEWBG_nL.cpp:359-403,
PlotEWBG_vw.cpp:335-387, PotPlotter.cpp:703-719, Test.cpp:219-251, TripleHiggsNLO.cpp:230-270, VEVEVO.cpp:300-348.
`argv` is without the name of the program. -/
def convertInput (g : Prog) (argv : List Str) : List Str :=
  match argv with
  | [] => []
  | first :: _ =>
    if stringStartsWith first "--".toList || stringStartsWith first "-".toList then argv
    else List.zipWith (fun n v => "--".toList ++ n.toList ++ "=".toList ++ v) (names g) argv

/-- The start of `main`: `prepare_parser`, `add_input`, and the first call in the constructor of `CLIOptions`,
e.g. BSMPT.cpp:65-67 and 241. -/
def start (json : Str → Outcome (List (Str × Str))) (g : Prog) (lg : Logger) (argv : List Str) : Outcome Parser :=
  let r := addInput json (prepare g) lg (convertInput g argv)
  r.out >>= fun _ => checkRequired r.parser >>= fun _ => ok r.parser

end Verif.Programs.Positional
