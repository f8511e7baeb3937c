import Mathlib.Algebra.Order.Ring.Defs
import Mathlib.Data.Rat.Defs
import Verif.Spline.Band

/-!
# The cubic splines, src/utility/spline/spline.cpp:35-446

Doubles are elements of an ordered field without rounding. A vector is its length together with the
function from its indices to its values. The `assert`s are switched off in the default (Release)
build, CMakeLists.txt:52-54; what they require is a hypothesis of the theorems.
-/

namespace Verif.Spline

variable {K : Type} [Field K] [LinearOrder K]

/-- `spline_type`, spline.h:44-49. -/
inductive SplineType where
  | linear | cspline | hermite
  deriving DecidableEq, Repr

/-- `bd_type`, spline.h:52-57. -/
inductive Bd where
  | first | second | notAKnot
  deriving DecidableEq, Repr

/-- The data members of `spline`, spline.h:59-71. -/
structure Spl (K : Type) where
  n : Nat
  x : Nat → K
  y : Nat → K
  b : Nat → K
  c : Nat → K
  d : Nat → K
  /-- for the left extrapolation -/
  c0 : K
  type : SplineType
  left : Bd
  right : Bd
  leftValue : K
  rightValue : K
  madeMonotonic : Bool

/-- The default constructor, spline.h:76-85: natural splines. -/
def fresh (K : Type) [Field K] : Spl K :=
  { n := 0, x := fun _ => 0, y := fun _ => 0, b := fun _ => 0, c := fun _ => 0, d := fun _ => 0
    c0 := 0, type := .cspline, left := .second, right := .second, leftValue := 0, rightValue := 0
    madeMonotonic := false }

/-- `set_boundary`, spline.cpp:38-48. -/
def setBoundary (s : Spl K) (left : Bd) (leftValue : K) (right : Bd) (rightValue : K) : Spl K :=
  { s with left := left, right := right, leftValue := leftValue, rightValue := rightValue }

/-- The matrix of the equations for the coefficients `c`, spline.cpp:118-186. -/
def matrix (s : Spl K) (n : Nat) (x : Nat → K) (i j : Nat) : K :=
  if i = 0 then
    match s.left with
    | .second => if j = 0 then 2 else 0
    | .first => if j = 0 then 2 * (x 1 - x 0) else if j = 1 then 1 * (x 1 - x 0) else 0
    | .notAKnot =>
      if j = 0 then -(x 2 - x 1) else if j = 1 then x 2 - x 0
      else if j = 2 then -(x 1 - x 0) else 0
  else if i = n - 1 then
    match s.right with
    | .second => if j = n - 1 then 2 else 0
    | .first =>
      if j = n - 1 then 2 * (x (n - 1) - x (n - 2))
      else if j = n - 2 then 1 * (x (n - 1) - x (n - 2)) else 0
    | .notAKnot =>
      if j = n - 3 then -(x (n - 1) - x (n - 2)) else if j = n - 2 then x (n - 1) - x (n - 3)
      else if j = n - 1 then -(x (n - 2) - x (n - 3)) else 0
  else if i < n - 1 then
    (if j + 1 = i then 1 / 3 * (x i - x (i - 1))
      else if j = i then 2 / 3 * (x (i + 1) - x (i - 1))
      else if j = i + 1 then 1 / 3 * (x (i + 1) - x i) else 0)
  else 0

/-- The right hand side, spline.cpp:119-186. For `not_a_knot` on the right the code sets `rhs[0]`
once more instead of `rhs[n - 1]`, 181. -/
def rhs (s : Spl K) (n : Nat) (x y : Nat → K) (i : Nat) : K :=
  if i = 0 then
    (if s.right = .notAKnot then 0 else
    match s.left with
    | .second => s.leftValue
    | .first => 3 * ((y 1 - y 0) / (x 1 - x 0) - s.leftValue)
    | .notAKnot => 0)
  else if i = n - 1 then
    match s.right with
    | .second => s.rightValue
    | .first => 3 * (s.rightValue - (y (n - 1) - y (n - 2)) / (x (n - 1) - x (n - 2)))
    | .notAKnot => 0
  else (y (i + 1) - y i) / (x (i + 1) - x i) - (y i - y (i - 1)) / (x i - x (i - 1))

/-- The band matrix of the equations, spline.cpp:116-118. -/
def system (s : Spl K) (n : Nat) (x : Nat → K) : Band K :=
  { dim := n, nu := if s.left = .notAKnot then 2 else 1, nl := if s.right = .notAKnot then 2 else 1
    a := matrix s n x, saved := fun _ => 0 }

/-- `m_d[i]` of a cubic spline in terms of the coefficients `c`, spline.cpp:196, 204. -/
def csplineD (n : Nat) (x c : Nat → K) (i : Nat) : K :=
  if i = n - 1 then 0 else 1 / 3 * (c (i + 1) - c i) / (x (i + 1) - x i)

/-- `m_b[i]` for `i < n - 1`, spline.cpp:197-198. -/
def csplineB (x y c : Nat → K) (i : Nat) : K :=
  (y (i + 1) - y i) / (x (i + 1) - x i) - 1 / 3 * (2 * c i + c (i + 1)) * (x (i + 1) - x i)

/-- The branch `cspline` of `set_points`, spline.cpp:109-208. -/
def setCspline (s : Spl K) (n : Nat) (x y : Nat → K) : Spl K :=
  let c := luSolve (system s n x) (rhs s n x y)
  let d := csplineD n x c
  let h := x (n - 1) - x (n - 2)
  { s with
    n := n, x := x, y := y, type := .cspline, madeMonotonic := false
    b := fun i => if i = n - 1 then
        3 * d (n - 2) * h * h + 2 * c (n - 2) * h + csplineB x y c (n - 2)
      else csplineB x y c i
    c := if s.right = .first then setVec c (n - 1) 0 else c
    d := d
    c0 := if s.left = .first then 0 else (if s.right = .first then setVec c (n - 1) 0 else c) 0 }

/-- The branch `linear` of `set_points`, spline.cpp:92-108. -/
def setLinear (s : Spl K) (n : Nat) (x y : Nat → K) : Spl K :=
  { s with
    n := n, x := x, y := y, type := .linear, madeMonotonic := false
    b := fun i => if i = n - 1 then (y (n - 2 + 1) - y (n - 2)) / (x (n - 2 + 1) - x (n - 2))
      else (y (i + 1) - y i) / (x (i + 1) - x i)
    c := fun _ => 0
    d := fun _ => 0
    c0 := 0 }

/-- `m_c[i]` from the slopes, spline.cpp:61-63. -/
def coeffC (x y b : Nat → K) (i : Nat) : K :=
  (3 * (y (i + 1) - y i) / (x (i + 1) - x i) - (2 * b i + b (i + 1))) / (x (i + 1) - x i)

/-- `m_d[i]` from the slopes, spline.cpp:65-66. -/
def coeffD (x y b : Nat → K) (i : Nat) : K :=
  ((b (i + 1) - b i) / (3 * (x (i + 1) - x i)) - 2 / 3 * coeffC x y b i) / (x (i + 1) - x i)

/-- `set_coeffs_from_b`, spline.cpp:50-71: the last elements of `m_c` and `m_d` are kept. -/
def setCoeffsFromB (s : Spl K) : Spl K :=
  let c := fun i => if i < s.n - 1 then coeffC s.x s.y s.b i else s.c i
  { s with
    c := c
    d := fun i => if i < s.n - 1 then coeffD s.x s.y s.b i else s.d i
    c0 := if s.left = .first then 0 else c 0 }

/-- The slope at an inner point of a hermite spline, spline.cpp:219-225. -/
def hermiteB (x y : Nat → K) (i : Nat) : K :=
  let h := x (i + 1) - x i
  let hl := x i - x (i - 1);
  -h / (hl * (hl + h)) * y (i - 1) + (h - hl) / (hl * h) * y i + hl / (h * (hl + h)) * y (i + 1)

/-- The slope at the first point, spline.cpp:227-250. -/
def hermiteFirst (s : Spl K) (x y : Nat → K) (b : Nat → K) : K :=
  match s.left with
  | .first => s.leftValue
  | .second =>
    let h := x 1 - x 0
    1 / 2 * (-b 1 - 1 / 2 * s.leftValue * h + 3 * (y 1 - y 0) / h)
  | .notAKnot =>
    let h0 := x 1 - x 0
    let h1 := x 2 - x 1;
    -b 1 + 2 * (y 1 - y 0) / h0 + h0 * h0 / (h1 * h1) * (b 1 + b 2 - 2 * (y 2 - y 1) / h1)

/-- The slope at the last point, spline.cpp:251-279; `b` already has its first element. -/
def hermiteLast (s : Spl K) (n : Nat) (x y : Nat → K) (b : Nat → K) : K :=
  match s.right with
  | .first => s.rightValue
  | .second =>
    let h := x (n - 1) - x (n - 2)
    1 / 2 * (-b (n - 2) + 1 / 2 * s.rightValue * h + 3 * (y (n - 1) - y (n - 2)) / h)
  | .notAKnot =>
    let h0 := x (n - 2) - x (n - 3)
    let h1 := x (n - 1) - x (n - 2);
    -b (n - 2) + 2 * (y (n - 1) - y (n - 2)) / h1
      + h1 * h1 / (h0 * h0) * (b (n - 3) + b (n - 2) - 2 * (y (n - 2) - y (n - 3)) / h0)

/-- The curvature kept for the extrapolation on the right, spline.cpp:254, 261, 274-275. -/
def hermiteLastC (s : Spl K) (n : Nat) (x y : Nat → K) (b : Nat → K) : K :=
  match s.right with
  | .first => 0
  | .second => 1 / 2 * s.rightValue
  | .notAKnot =>
    let h1 := x (n - 1) - x (n - 2)
    (b (n - 2) + 2 * b (n - 1)) / h1 - 3 * (y (n - 1) - y (n - 2)) / (h1 * h1)

/-- The branch `cspline_hermite` of `set_points`, spline.cpp:209-285. With not-a-knot conditions the
first slope uses `b[2]` and the last one `b[n - 3]`, which are inner points for `n ≥ 4`. -/
def setHermite (s : Spl K) (n : Nat) (x y : Nat → K) : Spl K :=
  let b1 := setVec (hermiteB x y) 0 (hermiteFirst s x y (hermiteB x y))
  let b := setVec b1 (n - 1) (hermiteLast s n x y b1)
  setCoeffsFromB
    { s with
      n := n, x := x, y := y, type := .hermite, madeMonotonic := false
      b := b
      c := fun _ => hermiteLastC s n x y b
      d := fun _ => 0 }

/-- `set_points`, spline.cpp:73-290. -/
def setPoints (s : Spl K) (n : Nat) (x y : Nat → K) (type : SplineType) : Spl K :=
  match type with
  | .linear => setLinear s n x y
  | .cspline => setCspline s n x y
  | .hermite => setHermite s n x y

/-- `find_closest`, spline.cpp:352-358: `std::upper_bound` on sorted data is the first index whose
value exceeds `t`. -/
def findClosest (s : Spl K) (t : K) : Nat :=
  ((List.range s.n).find? fun i : Nat => t < s.x i).getD s.n - 1

/-- `operator()`, spline.cpp:360-388. -/
def eval (s : Spl K) (t : K) : K :=
  let idx := findClosest s t
  let h := t - s.x idx
  if t < s.x 0 then (s.c0 * h + s.b 0) * h + s.y 0
  else if s.x (s.n - 1) < t then
    (s.c (s.n - 1) * h + s.b (s.n - 1)) * h + s.y (s.n - 1)
  else ((s.d idx * h + s.c idx) * h + s.b idx) * h + s.y idx

/-- `deriv`, spline.cpp:390-432. -/
def deriv (s : Spl K) (order : Nat) (t : K) : K :=
  let idx := findClosest s t
  let h := t - s.x idx
  if t < s.x 0 then
    (if order = 1 then 2 * s.c0 * h + s.b 0 else if order = 2 then 2 * s.c0 else 0)
  else if s.x (s.n - 1) < t then
    (if order = 1 then 2 * s.c (s.n - 1) * h + s.b (s.n - 1)
      else if order = 2 then 2 * s.c (s.n - 1) else 0)
  else
    (if order = 1 then (3 * s.d idx * h + 2 * s.c idx) * h + s.b idx
      else if order = 2 then 6 * s.d idx * h + 2 * s.c idx
      else if order = 3 then 6 * s.d idx else 0)

end Verif.Spline
