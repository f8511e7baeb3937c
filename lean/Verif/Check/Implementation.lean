import Verif.Check.Numeric
import Verif.Batch.Model
import Verif.Batch.Legend

/-!
# `CheckImplementation` and the program `Test`
-/

namespace Verif.Check

open Outcome
open Verif.Models (Class)

/-- What the checks of a model return.  The simplified potentials are checked only if they are used. -/
structure Checks where
  ctLabels : Outcome TestResult
  vevLabels : Outcome TestResult
  tempLabels : Outcome TestResult
  tripleLabels : Outcome TestResult
  ckm : Outcome TestResult
  gaugeMasses : Outcome TestResult
  fermionMasses : Outcome (TestResult × TestResult)
  minimum : Outcome TestResult
  tadpoles : Outcome TestResult
  nlo : Outcome TestResult
  treeSimplified : Option (Outcome TestResult)
  counterSimplified : Option (Outcome TestResult)
  ctSecond : Outcome TestResult
  ctFirst : Outcome TestResult
  l2 : Outcome TestResult
  l3 : Outcome TestResult
  l4 : Outcome TestResult
  gaugeTensor : Outcome TestResult
  leptonTensor : Outcome TestResult
  leptonMass : Outcome TestResult
  quarkTensor : Outcome TestResult
  quarkMass : Outcome TestResult

/-- `TestNames.push_back(name); TestResults.push_back(check);` -/
def push (rows : List (String × TestResult)) (name : String) (check : Outcome TestResult) :
    Outcome (List (String × TestResult)) := do
  let r ← check
  ok (rows ++ [(name, r)])

/-- The same below `if (…)`. -/
def pushIf (rows : List (String × TestResult)) (name : String) :
    Option (Outcome TestResult) → Outcome (List (String × TestResult))
  | none => ok rows
  | some check => push rows name check

/-- The tests of `CheckImplementation` in their order, ClassPotentialOrigin.cpp:3555-3659.  Names and results
are added in pairs, so that the comparison of their numbers never throws. -/
def implementation (c : Checks) : Outcome (List (String × TestResult)) := do
  let t ← push [] "CT number/label match" c.ctLabels
  let t ← push t "VEV number/label match" c.vevLabels
  let t ← push t "addLegendTemp number/label match" c.tempLabels
  let t ← push t "addLegendTripleCouplings number/label match" c.tripleLabels
  let t ← push t "CKM matrix unitarity" c.ckm
  let t ← push t "Matching gauge boson masses with SMparam.h" c.gaugeMasses
  let f ← c.fermionMasses
  let t ← push t "Matching lepton masses with SMparam.h" (ok f.1)
  let t ← push t "Matching quark masses with SMparam.h" (ok f.2)
  let t ← push t "Correct EW Minimum" c.minimum
  let t ← push t "Tadpole relations fullfilled" c.tadpoles
  let t ← push t "Matching Masses between NLO and tree-level" c.nlo
  let t ← pushIf t "Checking VTreeSimplified" c.treeSimplified
  let t ← pushIf t "Checking VCounterSimplified" c.counterSimplified
  let t ← push t "Checking second derivative of CW+CT" c.ctSecond
  let t ← push t "Checking first derivative of CW+CT" c.ctFirst
  let t ← push t "Check symmetric properties of the scalar tensor Lij" c.l2
  let t ← push t "Check symmetric properties of the scalar tensor Lijk" c.l3
  let t ← push t "Check symmetric properties of the scalar tensor Lijkl" c.l4
  let t ← push t "Check symmetric properties of the gauge tensor in the C2HDM" c.gaugeTensor
  let t ← push t "Check symmetric properties of the Lepton tensor in the C2HDM" c.leptonTensor
  let t ← push t "Check symmetric properties of the mass Lepton tensor in the C2HDM" c.leptonMass
  let t ← push t "Check symmetric properties of the Quark tensor in the C2HDM" c.quarkTensor
  push t "Check symmetric properties of the mass Quark tensor in the C2HDM" c.quarkMass

/-- `TestResultsToString`, ModelTestfunctions.cpp:142-164. -/
def resultText : TestResult → List Char
  | .pass => "Pass".toList
  | .fail => "Fail".toList

/-- `std::setw(n) << std::left << s` -/
def pad (n : Nat) (s : List Char) : List Char := s ++ List.replicate (n - s.length) ' '

/-- `maxsize` after the loop, ClassPotentialOrigin.cpp:3682-3687. -/
def width (rows : List (String × TestResult)) : Nat :=
  rows.foldl (fun m r => if r.1.toList.length > m then r.1.toList.length else m)
    ((rows.head?.map fun r => r.1.toList.length).getD 0) + 5

/-- The output of `CheckImplementation`, ClassPotentialOrigin.cpp:3673-3708, as a list of lines. -/
def report (rows : List (String × TestResult)) : List (List Char) :=
  let passes := (rows.filter fun r => resultText r.2 = "Pass".toList).length
  ["".toList, "TEST | Pass/Fail".toList, "================================".toList, "".toList] ++
    rows.map (fun r => pad (width rows) r.1.toList ++ "| ".toList ++ resultText r.2) ++
    [(toString passes).toList ++ " tests out of ".toList ++ (toString rows.length).toList ++
      " passed.".toList, "".toList] ++
    if passes ≠ rows.length then
      [(toString (rows.length - passes)).toList ++ " tests failed. Please check and try again.".toList]
    else ["You're good to go!".toList, "".toList]

/-- `nParCT` of the constructors: ClassPotentialSM.cpp:31, ClassPotentialR2HDM.cpp:31,
ClassPotentialC2HDM.cpp:26, ClassPotentialN2HDM.cpp:32, ClassPotentialCxSM.cpp:37,
ClassPotentialCPintheDark.cpp:41, ClassTemplate.cpp:46. -/
def nParCT : Class → Nat
  | .sm => 6
  | .r2hdm => 11
  | .c2hdm => 15
  | .n2hdm => 15
  | .cxsm => 9 + 6
  | .cpinthedark => 19
  | .template => 3

/-- The exit status of a program. -/
inductive Exit where
  | success
  | failure
  deriving DecidableEq

/-- The steps of the loop of Test.cpp:81-101; `legend` is the line given to `setUseIndexCol`, `point` reads a
line and returns the output of `CheckImplementation`.  The output is printed before a later exception. -/
def testSteps (point : List Char → List Char → Outcome (List (List Char))) :
    List Char → List Batch.Step → Outcome (List (List Char))
  | _, [] => ok []
  | _, .legend l :: rest => testSteps point l rest
  | legend, .point l :: rest => do
    let out ← point legend l
    let more ← testSteps point legend rest
    ok (out ++ more)

/-- `main` of Test.cpp:53-111 with the result of `args.good()` and the input file, which may not exist.  The
status and what `CheckImplementation` prints; there is at most one point so that nothing has been printed when
an exception is caught.  `none` if the loop does not end within `fuel` passes.  Nothing throws an `int`. -/
def testMain (good : Outcome Bool) (file : Option (List Char)) (line : Int) (fuel : Nat)
    (point : List Char → List Char → Outcome (List (List Char))) : Option (Outcome (Exit × List (List Char))) :=
  match good with
  | .err _ => some (ok (.failure, []))
  | .ub u => some (.ub u)
  | .ok false => some (ok (.failure, []))
  | .ok true => match file with
    | none => some (ok (.failure, []))
    | some text => (Batch.testProgram line fuel text).map fun steps =>
      match testSteps point [] steps with
      | .ok out => ok (.success, out)
      | .err _ => ok (.failure, [])
      | .ub u => .ub u

end Verif.Check
