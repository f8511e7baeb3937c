import Verif.Check.Model
import Mathlib.Algebra.Order.Field.Basic
import Mathlib.Algebra.Order.Ring.Abs
import Mathlib.Data.List.Sort

/-!
# The numerical checks, ModelTestfunctions.cpp:166-753

The checks compare what the model calculates with what is expected.  A calculated double may be
NaN.  Masses, eigenvalues, values of the potential and derivatives are parameters; the constants of
the standard model are numbers.
-/

namespace Verif.Check

open Outcome

section

variable {K : Type} [Field K] [LinearOrder K]

/-- `a + b` -/
def plus : Flt K → Flt K → Flt K
  | .fin a, .fin b => .fin (a + b)
  | _, _ => .nan

/-- `a - b` -/
def minus : Flt K → Flt K → Flt K
  | .fin a, .fin b => .fin (a - b)
  | _, _ => .nan

/-- `std::abs(a)` -/
def absolute (a : Flt K) : Flt K := a.map fun x => |x|

/-- `a / b`.  Where the checks divide by zero the numerator is zero too, and `0 / 0` is NaN. -/
def quotient : Flt K → Flt K → Flt K
  | .fin a, .fin b => if b = 0 then .nan else .fin (a / b)
  | _, _ => .nan

/-- `std::max(a, b)`, that is `(a < b) ? b : a` -/
def maximum (a b : Flt K) : Flt K := if Flt.lt a b then b else a

/-- `double sum{0};` and a loop with `sum += x;` -/
def total (l : List (Flt K)) : Flt K := l.foldl plus (.fin 0)

/-- `x > bound ? TestResults::Fail : TestResults::Pass` -/
def within (bound : K) (x : Flt K) : TestResult :=
  if Flt.gt x (.fin bound) then .fail else .pass

/-- `1e-5` -/
def small : K := 1 / 10 ^ 5

/-- `std::sort(v.begin(), v.end())` -/
def sorted (l : List K) : List K := l.insertionSort (· ≤ ·)

/-- `CheckGaugeBosonMasses`, ModelTestfunctions.cpp:252-304, for the constants `C_MassW` and `C_MassZ`
and the result of `GaugeMassesSquared` in the vacuum. -/
def gaugeBosonMasses (mW mZ : K) (calculated : List (Flt K)) : TestResult :=
  let input := sorted [0, mW ^ 2, mW ^ 2, mZ ^ 2]
  if calculated.length ≠ input.length then .fail
  else within small (total (List.zipWith (fun c m =>
    if m = 0 then absolute c else quotient (absolute (minus c (.fin m))) (.fin m)) calculated input))

/-- The constants `C_MassElectron` etc. of the fermions. -/
structure FermionConstants (K : Type) where
  electron : K
  mu : K
  tau : K
  up : K
  charm : K
  top : K
  down : K
  strange : K
  bottom : K

/-- `leptonMassesInput`, ModelTestfunctions.cpp:312-320. -/
def leptonInput (c : FermionConstants K) : List K :=
  [0, 0, 0, c.electron ^ 2, (-c.electron) ^ 2, c.mu ^ 2, (-c.mu) ^ 2, c.tau ^ 2, (-c.tau) ^ 2]

/-- `quarkMassesInput`, ModelTestfunctions.cpp:322-334. -/
def quarkInput (c : FermionConstants K) : List K :=
  [c.up ^ 2, (-c.up) ^ 2, c.charm ^ 2, (-c.charm) ^ 2, c.top ^ 2, (-c.top) ^ 2,
   c.down ^ 2, (-c.down) ^ 2, c.strange ^ 2, (-c.strange) ^ 2, c.bottom ^ 2, (-c.bottom) ^ 2]

/-- The check of the leptons, ModelTestfunctions.cpp:371-398. -/
def leptonMasses (input : List K) (calculated : List (Flt K)) : TestResult :=
  within small (total (
    (List.zipWith (fun c m => absolute (minus c (.fin m))) calculated input) ++
    (calculated.drop input.length).map absolute ++
    (input.drop calculated.length).map fun m => absolute (.fin m)))

/-- The check of the quarks, ModelTestfunctions.cpp:421-429; `quarkMassesInput.at(i)` throws if more
masses are calculated than expected. -/
def quarkMasses (input : List K) (calculated : List (Flt K)) : Outcome TestResult :=
  if input.length < calculated.length then err .outOfRange
  else ok (within small (total (List.zipWith (fun c m => absolute (minus c (.fin m)))
    calculated input)))

/-- `CheckFermionicMasses`, ModelTestfunctions.cpp:306-431, for the results of `LeptonMassesSquared` and
`QuarkMassesSquared` in the vacuum. -/
def fermionicMasses (c : FermionConstants K) (nLepton : Nat) (leptons quarks : List (Flt K)) :
    Outcome (TestResult × TestResult) := do
  let quarkMassesInput := if nLepton = 0 then quarkInput c ++ leptonInput c else quarkInput c
  let first := if nLepton ≠ 0 then leptonMasses (sorted (leptonInput c)) leptons else .pass
  let second ← quarkMasses (sorted quarkMassesInput) quarks
  ok (first, second)

/-- `CheckTreeLevelMin`, ModelTestfunctions.cpp:433-481, for the result of the minimiser. -/
def treeLevelMin (nVEV : Nat) (vevTreeMin calculated : List (Flt K)) : Outcome TestResult := do
  let l ← (List.range nVEV).mapM fun i => do
    let c ← at' calculated i
    let v ← at' vevTreeMin i
    ok (absolute (minus (absolute c) (absolute v)))
  ok (within (1 / 2) (total l))

/-- `CheckTadpoleRelations`, ModelTestfunctions.cpp:483-503, for the derivatives
`VTree(transformedVEV, i + 1)`. -/
def tadpoleRelations (gradient : List (Flt K)) : TestResult :=
  within small (total (gradient.map absolute))

/-- Eigenvalues below `ZeroMass` are set to zero, ModelTestfunctions.cpp:534-545. -/
def zeroMass (x : Flt K) : Flt K := if Flt.lt (absolute x) (.fin small) then .fin 0 else x

/-- One pass of the loop of `CheckNLOMasses`, ModelTestfunctions.cpp:556-561: what is added to
`sum`. -/
def nloTerm (tree nlo : Flt K) : Flt K :=
  let z := absolute (minus (absolute nlo) tree)
  let n := maximum (absolute nlo) (absolute tree)
  if Flt.ne n (.fin 0) then quotient z n else .fin 0

/-- `CheckNLOMasses`, ModelTestfunctions.cpp:505-566, for the eigenvalues of the mass matrix at tree
level and with the one-loop and counterterm contributions. -/
def nloMasses (tree nlo : List (Flt K)) : TestResult :=
  within (1 / 2) (total (List.zipWith (fun t m => nloTerm (zeroMass t) (zeroMass m)) tree nlo))

/-- The relative difference of the potentials, ModelTestfunctions.cpp:589-590 and 630-632. -/
def relative (explicit simplified : Flt K) : Flt K :=
  quotient (absolute (minus explicit simplified)) (plus (absolute explicit) (absolute simplified))

/-- `CheckVTreeSimplified`, ModelTestfunctions.cpp:568-606, for the values of the potential from the
tensors and from `VTreeSimplified` at the ten points. -/
def treeSimplified (values : List (Flt K × Flt K)) : TestResult :=
  within small (total (values.map fun p => relative p.1 p.2))

/-- `CheckVCounterSimplified`, ModelTestfunctions.cpp:608-644. -/
def counterSimplified (values : List (Flt K × Flt K)) : TestResult :=
  within 1 (total (values.map fun p => relative p.1 p.2))

/-- `CheckCTConditionsFirstDerivative`, ModelTestfunctions.cpp:680-702, for the gradients of the
Coleman-Weinberg and the counterterm potential. -/
def ctFirst (weinberg nablaCT : List (Flt K)) : TestResult :=
  if (List.zipWith plus weinberg nablaCT).any fun x => Flt.gt (absolute x) (.fin small) then .fail
  else .pass

/-- `CheckCTConditionsSecondDerivative`, ModelTestfunctions.cpp:704-731, for the Hesse matrices. -/
def ctSecond (hesseCT weinberg : List (List (Flt K))) : TestResult :=
  if (List.zipWith (List.zipWith plus) hesseCT weinberg).any fun r => r.any fun x =>
    Flt.gt (absolute x) (.fin small) then .fail
  else .pass

/-- `CheckCTIdentities`, ModelTestfunctions.cpp:733-746. -/
def ctIdentities (identities : List (Flt K)) : TestResult :=
  if identities.any fun x => Flt.gt (absolute x) (.fin small) then .fail else .pass

end

/-- `CheckNumberOfCTParameters`, ModelTestfunctions.cpp:166-182. -/
def numberOfCTParameters (nParCT : Nat) (legend : List String) : TestResult :=
  if nParCT = legend.length then .pass else .fail

/-- `CheckNumberOfVEVLabels`, ModelTestfunctions.cpp:184-202. -/
def numberOfVEVLabels (nVEV : Nat) (legend : List String) : TestResult :=
  if nVEV = legend.length then .pass else .fail

/-- `CheckLegendTemp`, ModelTestfunctions.cpp:204-221. -/
def legendTemp (nVEV : Nat) (legend : List String) : TestResult :=
  if legend.length = nVEV + 3 then .pass else .fail

/-- `ExpectedTripleHiggs` after the loops, ModelTestfunctions.cpp:225-235. -/
def expectedTriple (nHiggs : Nat) : Nat :=
  ((List.range nHiggs).flatMap fun i => (List.range' i (nHiggs - i)).flatMap fun j =>
    (List.range' j (nHiggs - j)).map fun k => (i, j, k)).length * 3

/-- `CheckNumberOfTripleCouplings`, ModelTestfunctions.cpp:223-250. -/
def numberOfTripleCouplings (nHiggs : Nat) (legend : List String) : TestResult :=
  if expectedTriple nHiggs = legend.length then .pass else .fail

/-- `CheckCTNumber`, ModelTestfunctions.cpp:748-752. -/
def ctNumber {A : Type} (calcCT : List A) (nParCT : Nat) : TestResult :=
  if calcCT.length = nParCT then .pass else .fail

end Verif.Check
