import Mathlib.Algebra.Order.Field.Basic
import Mathlib.Algebra.BigOperators.Group.Finset.Basic
import Mathlib.Algebra.Order.Group.Abs
import Mathlib.Tactic.Linarith

/-!
# What the assignment of the mass eigenstates to the particles should be
-/

namespace Verif.Triple.Spec

open scoped BigOperators

variable {K : Type} [Field K] [LinearOrder K]

/-- Row `i` of the rotation matrix is a normalised state which consists of the fields `cols` only. -/
structure IsState (n : Nat) (R : Nat → Nat → K) (cols : List Nat) (i : Nat) : Prop where
  normalised : ∑ j ∈ Finset.range n, R i j ^ 2 = 1
  fields : ∀ j, j < n → j ∉ cols → R i j = 0

/-- `s`, `l` and `h` are the particles `a`, `b` and `c` such that `s` has a mass between 124 and 126 and no other one with
such a mass is heavier, and `l` is not heavier than `h`. -/
structure SMFirst (m : Nat → K) (a b c : Nat) (s l h : Nat) : Prop where
  particles : [s, l, h].Perm [a, b, c]
  window : 124 < m s ∧ m s < 126
  heaviest : ∀ p ∈ [a, b, c], 124 < m p → m p < 126 → m p ≤ m s
  sorted : m l ≤ m h

end Verif.Triple.Spec
