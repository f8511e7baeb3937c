import Verif.Outcome
import Verif.Utility.Model

/-!
# Model of `src/utility/parser.cpp`, `src/utility/Logger.cpp` and their headers

`std::string` is `List Char`.  `std::unordered_map` is an association list in which the first entry
of a key counts; `emplace` does not overwrite, so duplicates never arise through the interface and
no definition below depends on the order of the entries of different keys.
-/

namespace Verif.Parser

open Outcome Utility

abbrev Str := List Char

/-- `parser::to_lower`, parser.cpp:440-448 (`std::tolower` in the "C" locale: A–Z only). -/
def lower (s : Str) : Str := s.map Char.toLower

/-- `std::unordered_map<std::string, Options>` reduced to the field `value`
(parser.h:155-161; the other fields are only printed). -/
abbrev ArgMap := List (Str × Option Str)

/-- `map.find(key)` -/
def find (m : ArgMap) (k : Str) : Option (Option Str) :=
  match m with
  | [] => none
  | (k', v) :: m => if k' = k then some v else find m k

/-- `pos->second.value = v` for the entry found under `k` -/
def assign (m : ArgMap) (k v : Str) : ArgMap :=
  match m with
  | [] => []
  | (k', w) :: m => if k' = k then (k', some v) :: m else (k', w) :: assign m k v

/-- `map.emplace(k, options)` with `options.value = nullopt`: no effect when `k` is present. -/
def emplace (m : ArgMap) (k : Str) : ArgMap :=
  match find m k with
  | some _ => m
  | none => m ++ [(k, none)]

/-! ## Logger -/

/-- `enum class LoggingLevel`, Logger.h:27-40. -/
inductive Level where
  | none | default | minimizerDetailed | minTracerDetailed | transitionDetailed | gwDetailed
  | bounceDetailed | progDetailed | ewbgDetailed | debug | complete
  deriving DecidableEq, Repr

/-- `BSMPTLogger::mCurrentSetup`, Logger.h:91-100: a map from levels to switches. -/
abbrev Logger := Level → Option Bool

/-- The initial `mCurrentSetup`, Logger.h:91-100. -/
def Logger.init : Logger
  | .default => some true
  | .ewbgDetailed | .progDetailed | .minimizerDetailed | .minTracerDetailed
  | .transitionDetailed | .bounceDetailed | .gwDetailed | .debug => some false
  | .none | .complete => Option.none

/-- `BSMPTLogger::SetLevel(level, enable)`, Logger.cpp:140-143. -/
def setLevel (lg : Logger) (l : Level) (b : Bool) : Logger :=
  fun l' => if l' = l then some b else lg l'

/-- `BSMPTLogger::SetLevel(map)`, Logger.cpp:124-138: existing entries are overwritten, missing
ones inserted. -/
def setLevels (lg : Logger) (m : List (Level × Bool)) : Logger :=
  m.foldl (fun lg e => setLevel lg e.1 e.2) lg

/-- `BSMPTLogger::Disable`, Logger.cpp:151-155. -/
def disable : Logger := fun _ => Option.none

/-- Does `Logger::Write(level, ...)` print? Logger.h:66-83. -/
def writes (lg : Logger) (l : Level) : Bool :=
  match lg l with
  | some b => b
  | Option.none => false

/-- `static std::map<std::string, LoggingLevel> LoggingPrefixes`, Logger.cpp:22-32.  A `std::map`
is iterated in lexicographic order of its keys; the entries are listed here in that order (see
`prefixes_sorted`).  The key is what Logger.cpp:65-67 cuts out of the prefix. -/
def prefixes : List (Str × Level) :=
  [ ("logginglevel::bouncedetailed".toList, .bounceDetailed),
    ("logginglevel::complete".toList, .complete),
    ("logginglevel::debug".toList, .debug),
    ("logginglevel::default".toList, .default),
    ("logginglevel::ewbgdetailed".toList, .ewbgDetailed),
    ("logginglevel::gwdetailed".toList, .gwDetailed),
    ("logginglevel::minimizerdetailed".toList, .minimizerDetailed),
    ("logginglevel::mintracerdetailed".toList, .minTracerDetailed),
    ("logginglevel::progdetailed".toList, .progDetailed),
    ("logginglevel::transitiondetailed".toList, .transitionDetailed) ]

/-! ## parser -/

/-- The state of a `parser` object (parser.h:154-215). -/
structure Parser where
  required : ArgMap
  optional : ArgMap
  /-- `mHelpAlreadyPrinted` -/
  helpPrinted : Bool
  deriving DecidableEq

/-- `parser::add_argument`, parser.cpp:124-185 (the three overloads act alike on the maps). -/
def addArgument (p : Parser) (name : Str) (required : Bool) : Parser :=
  if required then { p with required := emplace p.required (lower name) }
  else { p with optional := emplace p.optional (lower name) }

/-- `parser::get_value_as_string`, parser.cpp:333-363 (= `get_value<std::string>`,
parser.h:106-113). -/
def getValue (p : Parser) (name : Str) : Outcome Str :=
  match find p.required (lower name) with
  | some (some v) => ok v
  | some none => err .parser
  | none =>
    match find p.optional (lower name) with
    | some (some v) => ok v
    | some none => err .parser
    | none => err .parser

/-- `get_value<bool>`, parser.h:126-130. -/
def getBool (p : Parser) (name : Str) : Outcome Bool := do
  let v ← getValue p name
  ok (lower v == "true".toList)

/-- `parser::all_required_set`, parser.cpp:226-239. -/
def allRequiredSet (p : Parser) : Bool := p.required.all fun e => e.2.isSome

/-- `parser::check_required_parameters`, parser.cpp:241-248. -/
def checkRequired (p : Parser) : Outcome Unit :=
  if allRequiredSet p then ok () else err .parser

/-- `SetLogger(const parser&)`, body of the loop over `LoggingPrefixes`, Logger.cpp:63-84.
A `parserException` from `get_value` is swallowed. -/
def setLoggerStep (p : Parser) (lg : Logger) (e : Str × Level) : Logger :=
  match getValue p e.1 with
  | ok v =>
    let lg := setLevel lg e.2 (v == "true".toList)
    if e.1 = "logginglevel::complete".toList ∧ v = "true".toList then
      setLevel (prefixes.foldl (fun lg e' => setLevel lg e'.2 true) lg) .minimizerDetailed false
    else lg
  | _ => lg

/-- `SetLogger(const parser&)`, Logger.cpp:51-85. -/
def setLogger (p : Parser) (lg : Logger) : Logger :=
  match getValue p "logginglevel::disabled".toList with
  | ok _ => disable
  | _ => prefixes.foldl (setLoggerStep p) lg

/-- `SetLogger(const std::vector<std::string>&)`, Logger.cpp:87-116.  `find_if` scans the prefixes
(here written `--key=`); after an unsuccessful search the code still evaluates `pos->second`. -/
def setLoggerArgs (args : List Str) (lg : Logger) : Outcome Logger :=
  if "--logginglevel::disabled".toList ∈ args then ok disable
  else args.foldlM (init := lg) fun lg el =>
    match prefixes.find? (fun e => stringStartsWith el ("--".toList ++ e.1 ++ "=".toList)) with
    | none => ub .endDeref
    | some e =>
      let v := el.drop ("--".toList ++ e.1 ++ "=".toList).length
      let lg := setLevel lg e.2 (v == "true".toList)
      if e.2 = .complete ∧ v = "true".toList then
        ok (setLevel (prefixes.foldl (fun lg e' => setLevel lg e'.2 true) lg)
          .minimizerDetailed false)
      else ok lg

/-- Result of a member function that may throw half-way: the new state of the parser and logger,
and how it ended. -/
structure Res where
  parser : Parser
  logger : Logger
  out : Outcome Unit

/-- `parser::print_help`, parser.cpp:250-331: only the flag is kept. -/
def printHelp (p : Parser) : Parser := { p with helpPrinted := true }

/-- `parser::add_input(const std::vector<KeyValue>&)`, parser.cpp:394-425. -/
def addKeyValues (p : Parser) (lg : Logger) : List (Str × Str) → Res
  | [] => ⟨p, setLogger p lg, ok ()⟩
  | (k, v) :: rest =>
    let a := lower k
    if a = "help".toList then addKeyValues (printHelp p) lg rest
    else if (find p.required a).isSome then
      addKeyValues { p with required := assign p.required a v } lg rest
    else if (find p.optional a).isSome then
      addKeyValues { p with optional := assign p.optional a v } lg rest
    else ⟨p, lg, err .parser⟩

/-- `parser::get_key_value`, parser.cpp:427-438.  `none` stands for `npos`:
`substr(npos, _)` throws, `substr(b, npos - b)` takes the rest, and `npos + 1` wraps to `0`. -/
def getKeyValue (input : Str) : Outcome (Str × Str) :=
  let beginning := input.findIdx? (· != '-')
  let separator := match input.findIdx? (· == '=') with
    | some s => some s
    | none => input.findIdx? (· == ' ')
  match beginning with
  | none => err .outOfRange
  | some b =>
    match separator with
    | none => ok (input.drop b, input)
    | some s => ok ((input.drop b).take (s - b), input.drop (s + 1))

/-- `parser::add_json_input`, parser.cpp:365-388.  `json file` is what reading and parsing the file
yields (an exception, or the list of its string items). -/
def addJson (json : Str → Outcome (List (Str × Str))) (p : Parser) (lg : Logger) (file : Str) :
    Res :=
  match json file with
  | ok items =>
    addKeyValues p lg (items.filter fun kv => !stringEndsWith kv.1 "_comment".toList)
  | err e => ⟨p, lg, err e⟩
  | ub u => ⟨p, lg, ub u⟩

/-- `parser::add_input(const std::vector<std::string>&)`, parser.cpp:195-224
(compiled with json support). -/
def addInput (json : Str → Outcome (List (Str × Str))) (p : Parser) (lg : Logger)
    (input : List Str) : Res :=
  let general : Res :=
    match input.mapM getKeyValue with
    | ok kvs => addKeyValues p lg kvs
    | err e => ⟨p, lg, err e⟩
    | ub u => ⟨p, lg, ub u⟩
  match input with
  | [arg] =>
    match getKeyValue arg with
    | ok (k, v) =>
      if k = "help".toList then ⟨printHelp p, lg, ok ()⟩
      else if k = "json".toList then addJson json p lg v
      else general
    | err e => ⟨p, lg, err e⟩
    | ub u => ⟨p, lg, ub u⟩
  | _ => general

end Verif.Parser
