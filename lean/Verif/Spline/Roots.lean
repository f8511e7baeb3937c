import Verif.Spline.Model
import Mathlib.Analysis.SpecialFunctions.Trigonometric.Inverse
import Mathlib.Analysis.SpecialFunctions.Pow.Real
import Mathlib.Data.List.Sort

/-!
# The solutions of `spline(x) = y` (`spline.cpp`)

Polynomials of degree up to three are solved with the explicit formulas; the margin within which a
discriminant counts as zero is calculated from the machine precision, which is the parameter `eps`
here (`get_eps()` in the code).

Simplification: the numbers are the real numbers.
-/

set_option linter.unusedVariables false

namespace Verif.Spline.Roots

/-- `get_eps`, spline.cpp:660-664 -/
noncomputable def getEps : ℝ := 2.2204460492503131e-16

/-- `solve_linear`, spline.cpp:667-691 -/
noncomputable def solveLinear (a b : ℝ) : List ℝ :=
  if b = 0 then (if a = 0 then [0] else []) else [-a / b]

/-- one Newton step for the quadratic polynomial, spline.cpp:732-738 -/
noncomputable def newton2 (a b c x : ℝ) : ℝ :=
  let f := (c * x + b) * x + a
  let f1 := 2 * c * x + b
  if |f1| > 1e-8 then x - f / f1 else x

/-- `solve_quadratic`, spline.cpp:694-743 -/
noncomputable def solveQuadratic (eps a b c : ℝ) (iter : Nat) : List ℝ :=
  if c = 0 then solveLinear a b
  else
    let p := 0.5 * b / c
    let q := a / c
    let discr := p * p - q
    let discrErr := (6 * (p * p) + 3 * |q| + |discr|) * (0.5 * eps)
    let x : List ℝ :=
      if |discr| ≤ discrErr then [-p]
      else if discr < 0 then []
      else [-p - Real.sqrt discr, -p + Real.sqrt discr]
    x.map (newton2 a b c)^[iter]

/-- one Newton step for the normalised cubic polynomial, spline.cpp:836-842 -/
noncomputable def newton3 (a b c z : ℝ) : ℝ :=
  let f := ((z + c) * z + b) * z + a
  let f1 := (3 * z + 2 * c) * z + b
  if |f1| > 1e-8 then z - f / f1 else z

/-- the coefficient `p` of the depressed cubic, spline.cpp:771 -/
noncomputable def depP (b c : ℝ) : ℝ := -(1 / 3) * b + (1 / 9) * (c * c)

/-- `r`, spline.cpp:772 -/
noncomputable def depR (b c : ℝ) : ℝ := 2 * (c * c) - 9 * b

/-- `q`, spline.cpp:773 -/
noncomputable def depQ (a b c : ℝ) : ℝ := -0.5 * a - (1 / 54) * (c * depR b c)

/-- `p_err`, spline.cpp:783-784 -/
noncomputable def pErr (eps b c : ℝ) : ℝ :=
  eps * ((3 / 3) * |b| + (4 / 9) * (c * c) + |depP b c|)

/-- `discr`, spline.cpp:774 -/
noncomputable def discr3 (a b c : ℝ) : ℝ :=
  depP b c * depP b c * depP b c - depQ a b c * depQ a b c

/-- `discr_err`, spline.cpp:785-791 -/
noncomputable def discrErr3 (eps a b c : ℝ) : ℝ :=
  let p := depP b c
  let r := depR b c
  let q := depQ a b c
  let rErr := eps * (6 * (c * c) + 18 * |b| + |r|)
  let qErr := 0.5 * |a| * eps + (1 / 54) * |c| * (rErr + |r| * 3 * eps) + |q| * eps
  (p * p) * (3 * pErr eps b c + |p| * 2 * eps) + |q| * (2 * qErr + |q| * eps)
    + |discr3 a b c| * eps

/-- the roots of the depressed cubic, spline.cpp:794-828 -/
noncomputable def depressed (eps a b c : ℝ) : List ℝ :=
  let p := depP b c
  let q := depQ a b c
  let discr := discr3 a b c
  if |discr| ≤ discrErr3 eps a b c then
    if |p| ≤ pErr eps b c then [0]
    else [2 * q / p, -0.5 * (2 * q / p)]
  else if discr > 0 then
    let ac := (1 / 3) * Real.arccos (q / (p * Real.sqrt p))
    let sq := 2 * Real.sqrt p
    [sq * Real.cos ac, sq * Real.cos (ac - 2 * Real.pi / 3), sq * Real.cos (ac - 4 * Real.pi / 3)]
  else if discr < 0 then
    let sgnq : ℝ := if 0 ≤ q then 1 else -1
    let basis := |q| + Real.sqrt (-discr)
    let C := sgnq * basis ^ ((1 : ℝ) / 3)
    [C + p / C]
  else []

/-- the search for the entry with the smallest modulus, spline.cpp:850-859: `(xmin, imin)` -/
noncomputable def smallest (z : List ℝ) : ℝ × Nat :=
  (List.range' 1 (z.length - 1)).foldl
    (fun s i => if s.1 > |z.getD i 0| then (|z.getD i 0|, i) else s) (|z.getD 0 0|, 0)

/-- `if (a == 0.0)` the entry with the smallest modulus is replaced by 0, spline.cpp:847-861 -/
noncomputable def forceZero (a : ℝ) (z : List ℝ) : List ℝ :=
  if a = 0 then z.set (smallest z).2 0 else z

/-- `solve_cubic` for a normalised polynomial, spline.cpp:768-863 -/
noncomputable def solveNormal (eps a b c : ℝ) (iter : Nat) : List ℝ :=
  (forceZero a ((depressed eps a b c).map fun z =>
    (newton3 a b c)^[iter] (z - (1 / 3) * c))).insertionSort (· ≤ ·)

/-- `solve_cubic`, spline.cpp:752-864 -/
noncomputable def solveCubic (eps a b c d : ℝ) (iter : Nat) : List ℝ :=
  if d = 0 then solveQuadratic eps a b c iter
  else if d ≠ 1 then solveNormal eps (a / d) (b / d) (c / d) iter
  else solveNormal eps a b c iter

/-- the tolerance at the left end of piece `i`, spline.cpp:460-461 -/
noncomputable def tolerance (eps : ℝ) (s : Spl ℝ) (i : Nat) : ℝ :=
  let h := if i > 0 then s.x i - s.x (i - 1) else 0
  eps * 512 * min h 1

/-- a root of piece `i`, spline.cpp:462-473 -/
noncomputable def addRoot (eps : ℝ) (s : Spl ℝ) (i : Nat) (x : List ℝ) (r : ℝ) : List ℝ :=
  let e := tolerance eps s i
  if -e ≤ r ∧ r < s.x (i + 1) - s.x i then
    let newRoot := s.x i + r
    match x.getLast? with
    | some l => if l + e > newRoot then x.dropLast ++ [newRoot] else x ++ [newRoot]
    | none => x ++ [newRoot]
  else x

/-- the roots of the left extrapolation, spline.cpp:443-450 -/
noncomputable def leftRoots (eps : ℝ) (s : Spl ℝ) (y : ℝ) : List ℝ :=
  ((solveCubic eps (s.y 0 - y) (s.b 0) s.c0 0 1).filter fun r => r < 0).map fun r => s.x 0 + r

/-- the roots of the right extrapolation, spline.cpp:480-488 -/
noncomputable def rightRoots (eps : ℝ) (s : Spl ℝ) (y : ℝ) : List ℝ :=
  ((solveCubic eps (s.y (s.n - 1) - y) (s.b (s.n - 1)) (s.c (s.n - 1)) 0 1).filter
    fun r => 0 ≤ r).map fun r => s.x (s.n - 1) + r

/-- one piece, spline.cpp:457-474 -/
noncomputable def addPiece (eps : ℝ) (s : Spl ℝ) (y : ℝ) (x : List ℝ) (i : Nat) : List ℝ :=
  (solveCubic eps (s.y i - y) (s.b i) (s.c i) (s.d i) 1).foldl (addRoot eps s i) x

/-- `spline::solve`, spline.cpp:434-492 -/
noncomputable def solve (eps : ℝ) (s : Spl ℝ) (y : ℝ) (ignoreExtrapolation : Bool) : List ℝ :=
  let x := if ignoreExtrapolation then [] else leftRoots eps s y
  let x := (List.range (s.n - 1)).foldl (addPiece eps s y) x
  if ignoreExtrapolation then x else x ++ rightRoots eps s y

end Verif.Spline.Roots
