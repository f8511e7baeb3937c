import Verif.Outcome
import Verif.Utility.Model
import Verif.Models.Model

/-!
# Model of `src/baryo_calculation/CalculateEtaInterface.cpp`

The configuration file, the constructors, the legend and the driver of the five methods.  The numerical
work behind a method is a parameter of the model (`External`).
-/

namespace Verif.Baryo

open Outcome Verif.Utility

abbrev Str := List Char

/-- White space in the sense of `isspace` in the "C" locale. -/
def blank (c : Char) : Bool :=
  c == ' ' || c == '\t' || c == '\n' || c == '\x0b' || c == '\x0c' || c == '\r'

/-- `while (ss >> tmp) words.push_back(tmp)`, CalculateEtaInterface.cpp:50-51 and 72-73; `cur` holds the
characters of the word being read, last one first. -/
def wordsFrom : Str → Str → List Str
  | [], cur => if cur = [] then [] else [cur.reverse]
  | c :: l, cur =>
    if blank c then (if cur = [] then wordsFrom l [] else cur.reverse :: wordsFrom l [])
    else wordsFrom l (c :: cur)

/-- The words of a line. -/
def words (s : Str) : List Str := wordsFrom s []

/-- The local variables of the loop over the lines: `method_transport_local` and
`bot_mass_flag_local`, CalculateEtaInterface.cpp:39-40. -/
structure Config where
  methods : List Bool
  botMass : Int
  deriving DecidableEq, Repr

/-- The part of the loop body for lines with `include`, CalculateEtaInterface.cpp:45-65. -/
def includeLine (line : Str) (c : Config) : Outcome Config :=
  if stringStartsWith line "include".toList then
    if (words line).length < 2 then err .runtime
    else
      let w := (words line).getD 1 []
      if w ≠ "yes".toList ∧ w ≠ "no".toList then err .runtime
      else ok { c with methods := c.methods ++ [decide (w = "yes".toList)] }
  else ok c

/-- The part of the loop body for lines with `massive`, CalculateEtaInterface.cpp:67-86. -/
def massiveLine (line : Str) (c : Config) : Outcome Config :=
  if stringStartsWith line "massive".toList then
    if (words line).length < 2 then err .runtime
    else
      let w := (words line).getD 1 []
      if w ≠ "yes".toList ∧ w ≠ "no".toList then err .runtime
      else if w = "yes".toList then ok { c with botMass := 1 }
      else ok c
  else ok c

/-- The body of the loop over the lines, CalculateEtaInterface.cpp:41-87 (`::tolower` in the "C" locale:
A–Z only). -/
def configLine (raw : Str) (c : Config) : Outcome Config :=
  if stringStartsWith raw "#".toList = true ∨ raw = [] then ok c
  else
    let line := raw.map Char.toLower
    (includeLine line c).bind (massiveLine line)

/-- The loop over the lines, CalculateEtaInterface.cpp:41-87. -/
def configLines : List Str → Config → Outcome Config
  | [], c => ok c
  | l :: ls, c => (configLine l c).bind (configLines ls)

/-- `CalculateEtaInterface::ReadConfigFile(file)`, CalculateEtaInterface.cpp:27-95; `none` is a file that
cannot be opened. -/
def readConfigFile (file : Option Str) : Outcome Config :=
  match file with
  | none => err .runtime
  | some text => configLines (split text '\n') ⟨[], 0⟩

/-- `enum class TransportMethod`, transport_equations.h:35-40. -/
inductive Method where
  | top | bottom | tau
  deriving DecidableEq, Repr

/-- The part of `GSL_integration_mubl` (transport_equations.h) that the driver changes, and everything
that `init` computes from the point (`data`: wall thickness, phases, minima, ...).  `vw` and `TC` are kept
apart since they can be changed on their own. -/
structure Container (K D : Type) where
  useVelocity : Bool
  method : Method
  vw : K
  tc : K
  data : D

/-- The members of `CalculateEtaInterface` (CalculateEtaInterface.h:44-106). -/
structure Interface (K M D : Type) where
  methods : List Bool
  botMass : Int
  vw : K
  tc : K
  vevCritical : List K
  vevSymmetric : List K
  model : M
  container : Container K D

/-- The arguments of `setNumerics` and `CalcEta`, CalculateEtaInterface.cpp:186-193. -/
structure Args (K M : Type) where
  vw : K
  vevCritical : List K
  vevSymmetric : List K
  tc : K
  model : M
  minimizer : Int

/-- The numerical work.
* `modelId`: `modelPointer->get_Model()`,
* `init`: what `GSL_integration_mubl::init` (transport_equations.cpp:154-346) computes,
* `broken`: the state in which an exception inside `init` leaves the container,
* `density`: `set_up_nL_grid` (gen_calc.cpp:21-79) with the transport equations of the first argument
  and the bottom mass flag of the second,
* `asymmetry`: `C_eta.set_class(arr_nL, TC, vw)` and `Nintegrate_eta` (gen_func_fluid.cpp:327-387), with
  the upper end of the integration from the container,
* `fluid`: `Integrate_mubl_interpolated` (transport_equations.cpp:970-1000). -/
structure External (K M D G : Type) where
  modelId : M → Models.ModelID
  init : Args K M → Outcome D
  broken : Args K M → Container K D → Container K D
  density : Method → Int → Container K D → Outcome G
  asymmetry : G → K → K → Container K D → Outcome K
  fluid : Container K D → Outcome K

variable {K M D G : Type}

/-- The constructors, CalculateEtaInterface.cpp:97-148; `s` holds the other members. -/
def construct (c : Config) (s : Interface K M D) : Outcome (Interface K M D) :=
  if c.methods.length ≠ 5 then err .runtime
  else ok { s with methods := c.methods, botMass := c.botMass }

/-- `CalculateEtaInterface(file, smConstants)`, CalculateEtaInterface.cpp:128-132. -/
def constructFromFile (file : Option Str) (s : Interface K M D) : Outcome (Interface K M D) :=
  (readConfigFile file).bind fun c => construct c s

/-- `v.at(i)` -/
def flag (l : List Bool) (i : Nat) : Outcome Bool :=
  match l[i]? with
  | some b => ok b
  | none => err .outOfRange

/-- `if (method_transport.at(i)) v.push_back(...)` -/
def pushIf {α : Type} (l : List Bool) (i : Nat) (x : α) (acc : List α) : Outcome (List α) :=
  (flag l i).bind fun b => ok (if b then acc ++ [x] else acc)

/-- `CalculateEtaInterface::legend`, CalculateEtaInterface.cpp:155-166. -/
def legend (s : Interface K M D) : Outcome (List Str) :=
  (pushIf s.methods 0 "eta_TopOnly".toList []).bind fun l =>
  (pushIf s.methods 1 "eta_TopBot".toList l).bind fun l =>
  (pushIf s.methods 2 "eta_TopBotTau".toList l).bind fun l =>
  (pushIf s.methods 3 "eta_PlasmaVelocities".toList l).bind fun l =>
  pushIf s.methods 4 "eta_PlasmaVelocitiesReplaced".toList l

/-- `CalculateEtaInterface::setNumerics`, CalculateEtaInterface.cpp:186-211 (the additional arguments have
no effect).  The object is returned also when an exception is thrown. -/
def setNumerics (ext : External K M D G) (s : Interface K M D) (a : Args K M) :
    Interface K M D × Outcome Unit :=
  let s := { s with vw := a.vw, vevCritical := a.vevCritical, vevSymmetric := a.vevSymmetric,
                    tc := a.tc, model := a.model }
  if ext.modelId s.model ≠ .c2hdm then (s, err .runtime)
  else
    match ext.init a with
    | .ok d => ({ s with container := { useVelocity := false, method := s.container.method,
                                        vw := a.vw, tc := a.tc, data := d } }, ok ())
    | .err e => ({ s with container := ext.broken a s.container }, err e)
    | .ub u => (s, ub u)

/-- `CalculateEtaInterface::setvw`, CalculateEtaInterface.cpp:213-217. -/
def setvw (s : Interface K M D) (vw : K) : Interface K M D :=
  { s with vw := vw, container := { s.container with vw := vw } }

/-- One of the first three blocks of `CalcEta()`, CalculateEtaInterface.cpp:257-314: the class that is
created is the one of the method that is stored in the container, so the casts in `set_up_nL_grid`
succeed. -/
def viaBlock (ext : External K M D G) (i : Nat) (m : Method) (s : Interface K M D)
    (eta : List K) : Interface K M D × Outcome (List K) :=
  match flag s.methods i with
  | .ok true =>
    let s := { s with container := { s.container with method := m } }
    (s, (ext.density m s.botMass s.container).bind fun g =>
        (ext.asymmetry g s.tc s.vw s.container).bind fun x => ok (eta ++ [x]))
  | .ok false => (s, ok eta)
  | .err e => (s, err e)
  | .ub u => (s, ub u)

/-- One of the last two blocks of `CalcEta()`, CalculateEtaInterface.cpp:303-312. -/
def fluidBlock (ext : External K M D G) (i : Nat) (v : Bool) (s : Interface K M D)
    (eta : List K) : Interface K M D × Outcome (List K) :=
  match flag s.methods i with
  | .ok true =>
    let s := { s with container := { s.container with useVelocity := v } }
    (s, (ext.fluid s.container).bind fun x => ok (eta ++ [x]))
  | .ok false => (s, ok eta)
  | .err e => (s, err e)
  | .ub u => (s, ub u)

/-- Sequential composition of blocks: an exception ends the function. -/
def andThen (r : Interface K M D × Outcome (List K))
    (f : Interface K M D → List K → Interface K M D × Outcome (List K)) :
    Interface K M D × Outcome (List K) :=
  match r with
  | (s, .ok eta) => f s eta
  | (s, .err e) => (s, err e)
  | (s, .ub u) => (s, ub u)

/-- `CalculateEtaInterface::CalcEta()`, CalculateEtaInterface.cpp:257-314. -/
def calcEta (ext : External K M D G) (s : Interface K M D) : Interface K M D × Outcome (List K) :=
  andThen (viaBlock ext 0 .top s []) fun s eta =>
  andThen (viaBlock ext 1 .bottom s eta) fun s eta =>
  andThen (viaBlock ext 2 .tau s eta) fun s eta =>
  andThen (fluidBlock ext 3 true s eta) fun s eta =>
  fluidBlock ext 4 false s eta

/-- `CalculateEtaInterface::CalcEta(vw, ...)`, CalculateEtaInterface.cpp:219-255. -/
def calcEtaAt (ext : External K M D G) (s : Interface K M D) (a : Args K M) :
    Interface K M D × Outcome (List K) :=
  match setNumerics ext s a with
  | (s, .ok ()) => calcEta ext s
  | (s, .err e) => (s, err e)
  | (s, .ub u) => (s, ub u)

/-- The choice of the bottom mass at the start of the right-hand sides of the transport equations with a
bottom quark, bot_source.cpp:57-64 and tau_source.cpp:62-70; `m` is the mass at the position. -/
def bottomMass {R : Type} [Zero R] (flag : Int) (m : R) : Outcome R :=
  if flag = 1 then ok m else if flag = 2 then ok 0 else err .runtime

end Verif.Baryo
