import Verif.Invariance.Model
import Mathlib.LinearAlgebra.Matrix.Charpoly.Basic
import Mathlib.Analysis.Matrix.Spectrum
import Mathlib.Data.Multiset.Sort

/-!
# What the eigenvalue solver does
-/

namespace Verif.Invariance

open Matrix

/-- The solver returns the eigenvalues of Hermitian matrices in ascending order, each as often as its
multiplicity. -/
structure Solver.Correct (S : Solver) : Prop where
  real : ∀ {k : Nat} (M : Matrix (Fin k) (Fin k) ℝ), M.IsHermitian →
    (S.real M).Pairwise (· ≤ ·) ∧ (S.real M : Multiset ℝ) = M.charpoly.roots
  complex : ∀ {k : Nat} (M : Matrix (Fin k) (Fin k) ℂ), M.IsHermitian →
    (S.complex M).Pairwise (· ≤ ·) ∧
      (((S.complex M).map Complex.ofReal : List ℂ) : Multiset ℂ) = M.charpoly.roots

open Classical in
/-- There is such a solver. -/
theorem solver_exists : ∃ S : Solver, S.Correct := by
  refine ⟨⟨fun {k} M => if h : M.IsHermitian then
      (Finset.univ.val.map (h.eigenvalues : Fin k → ℝ)).sort (· ≤ ·) else [],
    fun {k} M => if h : M.IsHermitian then
      (Finset.univ.val.map (h.eigenvalues : Fin k → ℝ)).sort (· ≤ ·) else [],
    fun _ _ => []⟩, ?_, ?_⟩
  · intro k M h
    simp only [dif_pos h]
    refine ⟨Multiset.pairwise_sort _ _, ?_⟩
    rw [Multiset.sort_eq, h.roots_charpoly_eq_eigenvalues]
    rfl
  · intro k M h
    simp only [dif_pos h]
    refine ⟨Multiset.pairwise_sort _ _, ?_⟩
    rw [← Multiset.map_coe, Multiset.sort_eq, h.roots_charpoly_eq_eigenvalues, Multiset.map_map]
    rfl

end Verif.Invariance
