import Verif.Outcome
import Verif.Flt

/-!
# The checks of the tensors, ModelTestfunctions.cpp:13-136 and 754-1048

`Test` decides with these functions whether the tensors of a model have the symmetries that the
formulas for masses and derivatives rely on.  A tensor is a list of lists; its entries are doubles
or complex doubles of which only the comparison `!=` is used.
-/

namespace Verif.Check

open Outcome

/-- `enum class TestResults`, ModelTestfunctions.h:20-24. -/
inductive TestResult where
  | pass
  | fail
  deriving DecidableEq, Repr

/-- A number that can be compared by `!=`: a double or a `std::complex<double>`. -/
class Comparable (E : Type) where
  ne : E → E → Bool

/-- `a != b` for doubles: NaN differs from everything. -/
instance (α : Type) [LinearOrder α] : Comparable (Flt α) := ⟨Flt.ne⟩

/-- A `std::complex<double>` as real and imaginary part. -/
abbrev Cplx (α : Type) := Flt α × Flt α

/-- `a != b` for `std::complex<double>`: real or imaginary parts differ. -/
instance (α : Type) [LinearOrder α] : Comparable (Cplx α) :=
  ⟨fun a b => Flt.ne a.1 b.1 || Flt.ne a.2 b.2⟩

variable {E : Type} [Comparable E]

/-- A loop whose body returns from the function as soon as a test fails, and that ends with
`return TestResults::Pass`. -/
def scan {ι : Type} : List ι → (ι → Outcome TestResult) → Outcome TestResult
  | [], _ => ok .pass
  | x :: xs, f => match f x with
    | ok .pass => scan xs f
    | r => r

/-- `if (a != b) return TestResults::Fail;` -/
def differs (a b : E) : TestResult := if Comparable.ne a b then .fail else .pass

/-- `Tensor.at(i).at(j)` -/
def get2 (T : List (List E)) (i j : Nat) : Outcome E := do
  let r ← at' T i
  at' r j

/-- `Tensor.at(i).at(j).at(k)` -/
def get3 (T : List (List (List E))) (i j k : Nat) : Outcome E := do
  let r ← at' T i
  get2 r j k

/-- `Tensor.at(i).at(j).at(k).at(l)` -/
def get4 (T : List (List (List (List E)))) (i j k l : Nat) : Outcome E := do
  let r ← at' T i
  get3 r j k l

/-- `CheckSymmetricTensorScalarSecond`, ModelTestfunctions.cpp:754-789. -/
def scalarSecond (T : List (List E)) : Outcome TestResult :=
  if T.isEmpty then ok .pass else do
  let nRows := T.length
  let first ← at' T 0
  let nCols := first.length
  if nRows ≠ nCols then ok .fail
  else if T.any fun rows => rows.length ≠ nCols then ok .fail
  else scan (List.range nRows) fun i => scan (List.range' i (nCols - i)) fun j => do
    let a ← get2 T i j
    let b ← get2 T j i
    ok (differs a b)

/-- `CheckSymmetricTensorScalarThird`, ModelTestfunctions.cpp:790-849. -/
def scalarThird (T : List (List (List E))) : Outcome TestResult :=
  if T.isEmpty then ok .pass
  else
  let nDim := T.length
  if T.any fun first => first.length ≠ nDim || first.any fun sec => sec.length ≠ nDim then ok .fail
  else scan (List.range nDim) fun i => scan (List.range nDim) fun j =>
    scan (List.range nDim) fun k =>
      scan [(i, k, j), (j, i, k), (j, k, i), (k, i, j), (k, j, i)] fun p => do
        let a ← get3 T i j k
        let b ← get3 T p.1 p.2.1 p.2.2
        ok (differs a b)

/-- `PermutationOrders`, ModelTestfunctions.cpp:22-118. -/
def permutationOrders (i j k l : Nat) : List (Nat × Nat × Nat × Nat) :=
  [(i, j, k, l), (i, j, l, k), (i, k, j, l), (i, k, l, j), (i, l, j, k), (i, l, k, j),
   (j, i, k, l), (j, i, l, k), (j, k, i, l), (j, k, l, i), (j, l, i, k), (j, l, k, i),
   (k, i, j, l), (k, i, l, j), (k, j, i, l), (k, j, l, i), (k, l, i, j), (k, l, j, i),
   (l, i, j, k), (l, i, k, j), (l, j, i, k), (l, j, k, i), (l, k, i, j), (l, k, j, i)]

/-- `CheckFourPermutation`, ModelTestfunctions.cpp:15-135; the loop starts at 1. -/
def fourPermutation (T : List (List (List (List E)))) (i j k l : Nat) : Outcome TestResult :=
  scan ((permutationOrders i j k l).drop 1) fun p => do
    let a ← get4 T i j k l
    let b ← get4 T p.1 p.2.1 p.2.2.1 p.2.2.2
    ok (differs a b)

/-- `CheckSymmetricTensorScalarFourth`, ModelTestfunctions.cpp:850-898. -/
def scalarFourth (T : List (List (List (List E)))) : Outcome TestResult :=
  if T.isEmpty then ok .pass
  else
  let nDim := T.length
  if T.any fun first => nDim ≠ first.length || first.any fun sec =>
      sec.length ≠ nDim || sec.any fun third => third.length ≠ nDim then ok .fail
  else scan (List.range nDim) fun i => scan (List.range nDim) fun j =>
    scan (List.range nDim) fun k => scan (List.range nDim) fun l => fourPermutation T i j k l

/-- `CheckSymmetricTensorLeptonsThird` and `CheckSymmetricTensorQuarksThird`,
ModelTestfunctions.cpp:900-939.  The lengths of the innermost vectors are not compared. -/
def fermionThird (T : List (List (List E))) : Outcome TestResult :=
  if T.isEmpty then ok .pass
  else
  let nDim := T.length
  if T.any fun rows => nDim ≠ rows.length then ok .fail
  else do
  let row ← at' T 0
  let inner ← at' row 0
  let nHiggs := inner.length
  scan (List.range nDim) fun i => scan (List.range nDim) fun j =>
    scan (List.range nHiggs) fun k => do
      let a ← get3 T i j k
      let b ← get3 T j i k
      ok (differs a b)

/-- `CheckSymmetricTensorLeptons` and `CheckSymmetricTensorQuarks`,
ModelTestfunctions.cpp:941-975. -/
def fermionSecond (T : List (List E)) : Outcome TestResult :=
  if T.isEmpty then ok .pass
  else
  let nDim := T.length
  if T.any fun rows => nDim ≠ rows.length then ok .fail
  else scan (List.range nDim) fun i => scan (List.range nDim) fun j => do
    let a ← get2 T i j
    let b ← get2 T j i
    ok (differs a b)

/-- `CheckSymmetricTensorGauge`, ModelTestfunctions.cpp:976-1046. -/
def gauge (T : List (List (List (List E)))) : Outcome TestResult :=
  if T.isEmpty then ok .pass
  else
  let nGauge := T.length
  if T.any fun rows => rows.length ≠ nGauge then ok .fail
  else do
  let row ← at' T 0
  let inner ← at' row 0
  let nHiggs := inner.length
  if nHiggs = 0 then ok .fail
  else if T.any fun nRowsGauge => nRowsGauge.any fun nRowsHiggs =>
      nRowsHiggs.length ≠ nHiggs || nRowsHiggs.any fun nColHiggs => nColHiggs.length ≠ nHiggs then
    ok .fail
  else scan (List.range nGauge) fun a => scan (List.range nGauge) fun b =>
    scan (List.range nHiggs) fun i => scan (List.range nHiggs) fun j =>
      scan [(a, b, j, i), (b, a, j, i), (b, a, i, j)] fun p => do
        let x ← get4 T a b i j
        let y ← get4 T p.1 p.2.1 p.2.2.1 p.2.2.2
        ok (differs x y)

end Verif.Check
