import Mathlib.Algebra.Field.Defs
import Mathlib.Algebra.BigOperators.Group.Finset.Basic

/-!
# Runge–Kutta methods and their order

Textbook definitions (Butcher): a method has order `p` iff for every rooted tree with at most `p`
vertices its elementary weight is one over the density of the tree.
-/

namespace Verif.Action.Spec

variable {K : Type} [Field K]

open scoped BigOperators

/-- `yout` is one step of size `h` of the explicit method with `s` stages and the tableau `A`, `b`, `c`
for `y' = f(rho, y)`. -/
def IsStep (s : Nat) (A : Nat → Nat → K) (b c : Nat → K) (f : K → (Nat → K) → Nat → K) (rho h : K)
    (y yout : Nat → K) : Prop :=
  ∃ k : Nat → Nat → K,
    (∀ i < s, k i = f (rho + c i * h) (fun m => y m + h * ∑ j ∈ Finset.range i, A i j * k j m)) ∧
    ∀ m, yout m = y m + h * ∑ i ∈ Finset.range s, b i * k i m

/-- Rooted trees: the single vertex, or a tree to whose root another tree is attached. -/
inductive Tree where
  | dot
  | graft (t u : Tree)
  deriving DecidableEq

/-- The number of vertices. -/
def Tree.size : Tree → Nat
  | dot => 1
  | graft t u => t.size + u.size

/-- The product of the densities of the subtrees at the root. -/
def Tree.branches : Tree → Nat
  | dot => 1
  | graft t u => t.branches * (u.size * u.branches)

/-- The density: the product over all vertices of the number of vertices above and including it. -/
def Tree.density (t : Tree) : Nat := t.size * t.branches

/-- The stage weights of a tree for a method with `s` stages. -/
def Tree.stage (s : Nat) (A : Nat → Nat → K) : Tree → Nat → K
  | dot, _ => 1
  | graft t u, i => t.stage s A i * ∑ j ∈ Finset.range s, A i j * u.stage s A j

/-- The elementary weight of a tree. -/
def Tree.weight (s : Nat) (A : Nat → Nat → K) (b : Nat → K) (t : Tree) : K :=
  ∑ i ∈ Finset.range s, b i * t.stage s A i

/-- The method satisfies all order conditions up to `p`. -/
def HasOrder (p s : Nat) (A : Nat → Nat → K) (b : Nat → K) : Prop :=
  ∀ t : Tree, t.size ≤ p → t.weight s A b = 1 / t.density

end Verif.Action.Spec
