import Mathlib.Data.Real.Basic
import Mathlib.Algebra.BigOperators.Group.Finset.Basic

/-!
# Bernstein polynomials of the path deformation, src/bounce_solution/action_calculation.cpp
-/

namespace Verif.Action

open scoped BigOperators

/-- Conversion of an integer to a 32 bit `int`. -/
def toInt32 (a : Int) : Int := (a + 2 ^ 31) % 2 ^ 32 - 2 ^ 31

/-- One pass of the loop of `nChoosek`, action_calculation.cpp:1458-1472: the product of an `int` and an
`unsigned` is `unsigned`, the quotient of an `int` and a `size_t` is a 64 bit `size_t`. -/
def chooseStep (n : Nat) (result : Int) (i : Nat) : Int :=
  let p := toInt32 (result * ((n : Int) - i + 1))
  toInt32 (p % 2 ^ 64 / i)

/-- `nChoosek`, action_calculation.cpp:1458-1472. -/
def nChoosek (n k : Nat) : Int :=
  if k > n then 0
  else
    let k := if k * 2 > n then n - k else k
    if k = 0 then 1
    else (List.range' 2 (k - 1)).foldl (chooseStep n) n

/-- `Bernstein`, action_calculation.cpp:987-1002. The index may be negative. -/
noncomputable def bernstein (n nu : Int) (x : ℝ) : ℝ :=
  if nu < 0 ∨ nu > n then 0
  else nChoosek n.toNat nu.toNat * x ^ nu.toNat * (1 - x) ^ (n - nu).toNat

/-- The field values of the path with Bernstein coefficients `c`, action_calculation.cpp:1199-1210. -/
noncomputable def bernPhi (n : Nat) (c : Nat → ℝ) (l0 lf l : ℝ) : ℝ :=
  ∑ b ∈ Finset.range n, bernstein n b ((l - l0) / (lf - l0)) * c b

/-- Their derivative, action_calculation.cpp:1211-1215. -/
noncomputable def bernDphi (n : Nat) (c : Nat → ℝ) (l0 lf l : ℝ) : ℝ :=
  ∑ b ∈ Finset.range n, n * (bernstein (n - 1) (b - 1) ((l - l0) / (lf - l0))
    - bernstein (n - 1) b ((l - l0) / (lf - l0))) * c b / (lf - l0)

/-- Their second derivative, action_calculation.cpp:1216-1221. -/
noncomputable def bernD2phi (n : Nat) (c : Nat → ℝ) (l0 lf l : ℝ) : ℝ :=
  ∑ b ∈ Finset.range n, n * (n - 1) * (bernstein (n - 2) (b - 2) ((l - l0) / (lf - l0))
    - 2 * bernstein (n - 2) (b - 1) ((l - l0) / (lf - l0))
    + bernstein (n - 2) b ((l - l0) / (lf - l0))) * c b / (lf - l0) ^ 2

/-- The matrix `K`, action_calculation.cpp:1343-1355. -/
noncomputable def gram (n : Nat) (l0 lf : ℝ) (i j : Nat) : ℝ :=
  (lf - l0) * nChoosek n i * nChoosek n j / (nChoosek (2 * n) (i + j) * (2 * n + 1))

end Verif.Action
