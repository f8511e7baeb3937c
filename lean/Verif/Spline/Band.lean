import Mathlib.Algebra.Field.Defs
import Mathlib.Algebra.BigOperators.Group.List.Basic

/-!
# The band matrix solver of the spline library, src/utility/spline/spline.cpp:485-657

Doubles are elements of a field without rounding. A vector is the function from its indices to its
values; the loops only touch indices below the dimension. The two vectors of bands `m_upper` and
`m_lower` (entry `(i, j)` in band `j - i`, 534-555) are one function of row and column; only entries
inside the bands are touched. The diagonal saved in `m_lower[0]` is a field of its own.
-/

namespace Verif.Spline

variable {K : Type} [Field K]

/-- `band_matrix`, spline.h:152-172. -/
structure Band (K : Type) where
  dim : Nat
  /-- number of bands above the diagonal, `num_upper()` -/
  nu : Nat
  /-- number of bands below the diagonal, `num_lower()` -/
  nl : Nat
  a : Nat → Nat → K
  /-- `saved_diag`, spline.cpp:557-566 -/
  saved : Nat → K

/-- `A(i, j) = v`, spline.cpp:534-544. -/
def setAt (a : Nat → Nat → K) (i j : Nat) (v : K) : Nat → Nat → K :=
  fun i' j' => if i' = i ∧ j' = j then v else a i' j'

/-- `x[i] = v` -/
def setVec (x : Nat → K) (i : Nat) (v : K) : Nat → K := fun i' => if i' = i then v else x i'

/-- The indices `lo, …, hi` of a loop `for (j = lo; j <= hi; j++)`. -/
def fromTo (lo hi : Nat) : List Nat := List.range' lo (hi + 1 - lo)

/-- One pass of the preconditioning loop, spline.cpp:577-588: row `i` is divided by its diagonal
element. -/
def normRow (dim nu nl : Nat) (a : Nat → Nat → K) (i : Nat) : Nat → Nat → K :=
  let s := 1 / a i i
  setAt ((fromTo (i - nl) (min (dim - 1) (i + nu))).foldl (fun a j => setAt a i j (a i j * s)) a)
    i i 1

/-- The elimination of row `i` by row `k`, spline.cpp:595-606. -/
def elimRow (dim nu k : Nat) (a : Nat → Nat → K) (i : Nat) : Nat → Nat → K :=
  let x := -a i k / a k k
  (fromTo (k + 1) (min (dim - 1) (k + nu))).foldl (fun a j => setAt a i j (a i j + x * a k j))
    (setAt a i k (-x))

/-- One pass of the Gauss decomposition, spline.cpp:591-607. -/
def elim (dim nu nl : Nat) (a : Nat → Nat → K) (k : Nat) : Nat → Nat → K :=
  (fromTo (k + 1) (min (dim - 1) (k + nl))).foldl (elimRow dim nu k) a

/-- `lu_decompose`, spline.cpp:569-609. -/
def luDecompose (A : Band K) : Band K :=
  { A with
    a := (List.range A.dim).foldl (elim A.dim A.nu A.nl)
      ((List.range A.dim).foldl (normRow A.dim A.nu A.nl) A.a)
    saved := fun i => 1 / A.a i i }

/-- One pass of `l_solve`, spline.cpp:611-626. -/
def lStep (A : Band K) (b x : Nat → K) (i : Nat) : Nat → K :=
  setVec x i (b i * A.saved i
    - ((List.range' (i - A.nl) (i - (i - A.nl))).map fun j : Nat => A.a i j * x j).sum)

/-- `l_solve`, spline.cpp:611-626. -/
def lSolve (A : Band K) (b : Nat → K) : Nat → K :=
  (List.range A.dim).foldl (lStep A b) fun _ => 0

/-- One pass of `r_solve`, spline.cpp:628-643. -/
def rStep (A : Band K) (b x : Nat → K) (i : Nat) : Nat → K :=
  setVec x i ((b i - ((fromTo (i + 1) (min (A.dim - 1) (i + A.nu))).map
    fun j : Nat => A.a i j * x j).sum) / A.a i i)

/-- `r_solve`, spline.cpp:628-643. -/
def rSolve (A : Band K) (b : Nat → K) : Nat → K :=
  (List.range A.dim).reverse.foldl (rStep A b) fun _ => 0

/-- `lu_solve` of a matrix that is not yet decomposed, spline.cpp:645-657. -/
def luSolve (A : Band K) (b : Nat → K) : Nat → K :=
  let D := luDecompose A
  rSolve D (lSolve D b)

end Verif.Spline
