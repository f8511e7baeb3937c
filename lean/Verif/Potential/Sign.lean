import Verif.Flt
import Mathlib.Algebra.Order.Field.Basic
import Mathlib.Algebra.Order.Group.Unbundled.Abs
import Mathlib.Data.Int.Cast.Basic

/-!
# Sign symmetries: `Class_Potential_Origin::FindSignSymmetries`

The potential as a function of the VEVs (`VEff(MinimizeOrderVEV(v))`) is a parameter whose value may
be NaN.  The entries of the patterns are integers.
-/

namespace Verif.Potential

/-- Exchange `x` with the last greater element of a list (step of `std::next_permutation`). -/
def exchangeLast (x : Int) : List Int → Option (Int × List Int)
  | [] => none
  | y :: ys =>
    match exchangeLast x ys with
    | some (z, zs) => some (z, y :: zs)
    | none => if y > x then some (y, x :: ys) else none

/-- `std::next_permutation`: the tail is advanced if possible; a tail that cannot be advanced is
non-increasing, then the head is exchanged with the last greater element and the tail reversed.
`none` is the return value `false`.  ClassPotentialOrigin.cpp:3742. -/
def nextPerm : List Int → Option (List Int)
  | [] => none
  | x :: xs =>
    match nextPerm xs with
    | some ys => some (x :: ys)
    | none => (exchangeLast x xs).map fun p => p.1 :: p.2.reverse

/-- The patterns visited by `do … while (std::next_permutation(…))`,
ClassPotentialOrigin.cpp:3732-3743, with fuel. -/
def visits : Nat → List Int → Option (List (List Int))
  | 0, _ => none
  | fuel + 1, p =>
    match nextPerm p with
    | none => some [p]
    | some q => (visits fuel q).map (p :: ·)

/-- `countNegative` times -1 and then 1, ClassPotentialOrigin.cpp:3725-3729. -/
def startPattern (n c : Nat) : List Int := List.replicate c (-1) ++ List.replicate (n - c) 1

section

variable {K : Type} [Field K] [LinearOrder K]

/-- The test point `1, 2, …`, ClassPotentialOrigin.cpp:3713-3714. -/
def testVEV (n : Nat) : List K := (List.range n).map fun i : Nat => (i : K) + 1

/-- A pattern applied to a point, ClassPotentialOrigin.cpp:3733-3735. -/
def flip (p : List Int) (v : List K) : List K := List.zipWith (fun (s : Int) (x : K) => (s : K) * x) p v

/-- The comparison, ClassPotentialOrigin.cpp:3736-3739. -/
def accepts (V : List K → Flt K) (n : Nat) (p : List Int) : Bool :=
  match V (flip p (testVEV n)), V (testVEV n) with
  | .fin a, .fin r => decide (|a - r| ≤ 1 / 1000 * |r|)
  | _, _ => false

/-- `FindSignSymmetries`, ClassPotentialOrigin.cpp:3710-3744. -/
def findSignSymmetries (V : List K → Flt K) (n fuel : Nat) : Option (List (List Int)) :=
  ((List.range n).mapM fun c => visits fuel (startPattern n (c + 1))).map fun l =>
    l.flatten.filter (accepts V n)

end

end Verif.Potential
