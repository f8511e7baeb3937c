import Verif.Potential.Tree
import Mathlib.Data.Real.Basic

/-!
# Specification of the tree-level potential
-/

namespace Verif.Potential.Spec

open Verif.Potential

variable {K : Type} [Field K] {n : Nat}

/-- The polynomial of the curvature tensors:
`L1_i φ_i + 1/2! L2_ij φ_i φ_j + 1/3! L3_ijk φ_i φ_j φ_k + 1/4! L4_ijkl φ_i φ_j φ_k φ_l`. -/
def polynomial (c : Curv n K) (φ : Fin n → K) : K :=
  (∑ i, c.L1 i * φ i) + 1 / 2 * (∑ i, ∑ j, c.L2 i j * φ i * φ j) +
    1 / 6 * (∑ i, ∑ j, ∑ k, c.L3 i j k * φ i * φ j * φ k) +
    1 / 24 * (∑ i, ∑ j, ∑ k, ∑ l, c.L4 i j k l * φ i * φ j * φ k * φ l)

/-- The tensors do not depend on the order of their indices (invariance under exchange of
neighbouring indices, which generates all permutations). -/
structure Symmetric (c : Curv n K) : Prop where
  s2 : ∀ i j, c.L2 i j = c.L2 j i
  s3a : ∀ i j k, c.L3 i j k = c.L3 j i k
  s3b : ∀ i j k, c.L3 i j k = c.L3 i k j
  s4a : ∀ i j k l, c.L4 i j k l = c.L4 j i k l
  s4b : ∀ i j k l, c.L4 i j k l = c.L4 i k j l
  s4c : ∀ i j k l, c.L4 i j k l = c.L4 i j l k

/-- What the symmetrisation of a rank-`d` tensor of dimension `N` should do: the entries with
ascending indices stay, the value does not depend on the order of the indices, entries outside stay.
-/
def Symmetrises {K : Type} (d N : Nat) (t t' : List Nat → K) : Prop :=
  (∀ s : List Nat, s.length = d → s.Pairwise (· ≤ ·) → t' s = t s) ∧
  (∀ q q' : List Nat, q.length = d → (∀ k ∈ q, k < N) → q.Perm q' → t' q = t' q') ∧
  (∀ q : List Nat, ¬ (q.length = d ∧ ∀ k ∈ q, k < N) → t' q = t q)

end Verif.Potential.Spec
