import Verif.Weinberg.Spec
import Verif.Invariance.Assemble
import Mathlib.Data.Fin.Tuple.Sort
import Mathlib.Data.List.FinRange

/-!
# Eigenvectors
-/

namespace Verif.Weinberg

open Matrix Verif.Potential Verif.Invariance
open scoped BigOperators

variable {𝕜 : Type} [RCLike 𝕜] {m : Nat}

/-- The solver returns orthonormal eigenvectors in the order of the eigenvalues. -/
structure Vectors.Correct (X : Vectors) (S : Solver) : Prop where
  real : ∀ {k : Nat} (M : Matrix (Fin k) (Fin k) ℝ), M.IsHermitian →
    Diag M (X.real M) fun i => nth (S.real M) i
  complex : ∀ {k : Nat} (M : Matrix (Fin k) (Fin k) ℂ), M.IsHermitian →
    Diag M (X.complex M) fun i => nth (S.complex M) i

/-- The eigenvectors of a Hermitian matrix in ascending order of the eigenvalues. -/
theorem diag_sorted (M : Matrix (Fin m) (Fin m) 𝕜) (h : M.IsHermitian) :
    Diag M (of fun i j => (h.eigenvectorUnitary : Matrix (Fin m) (Fin m) 𝕜) i (Tuple.sort h.eigenvalues j))
      (h.eigenvalues ∘ Tuple.sort h.eigenvalues) := by
  set σ := Tuple.sort h.eigenvalues
  set U := (h.eigenvectorUnitary : Matrix (Fin m) (Fin m) 𝕜) with hU
  have h1 : star U * U = 1 := Unitary.coe_star_mul_self h.eigenvectorUnitary
  have h2 : U * star U = 1 := Unitary.coe_mul_star_self h.eigenvectorUnitary
  have hM : M = U * diagonal (fun i => (h.eigenvalues i : 𝕜)) * star U := by
    have := h.spectral_theorem
    rw [Unitary.conjStarAlgAut_apply] at this
    exact this
  refine ⟨?_, ?_, ?_⟩
  · ext i j
    have := congrFun (congrFun h1 (σ i)) (σ j)
    rw [Matrix.mul_apply] at this ⊢
    simp only [star_apply, of_apply] at this ⊢
    rw [this, one_apply, one_apply]
    simp [σ.injective.eq_iff]
  · ext i j
    have := congrFun (congrFun h2 i) j
    rw [Matrix.mul_apply] at this ⊢
    simp only [star_apply, of_apply] at this ⊢
    rw [← this]
    exact Equiv.sum_comp σ fun k => U i k * star (U j k)
  · conv_lhs => rw [hM]
    ext i j
    rw [Matrix.mul_apply, Matrix.mul_apply]
    simp only [mul_diagonal, star_apply, of_apply]
    exact (Equiv.sum_comp σ fun k => U i k * (h.eigenvalues k : 𝕜) * star (U j k)).symm

theorem sorted_list (f : Fin m → ℝ) (l : List ℝ) (hl : l.Pairwise (· ≤ ·))
    (e : (l : Multiset ℝ) = Finset.univ.val.map f) (i : Fin m) :
    nth l i = (f ∘ Tuple.sort f) i := by
  have h : l = List.ofFn (f ∘ Tuple.sort f) := by
    refine sorted_unique hl ?_ ?_
    · exact List.pairwise_ofFn.2 fun i j hij => Tuple.monotone_sort f hij.le
    · rw [e, Multiset.coe_eq_coe.2 ((Tuple.sort f).ofFn_comp_perm f), ← Fin.univ_val_map]
  rw [nth, h]
  simp [List.getD]

/-- There are such eigenvectors. -/
theorem vectors_exist {S : Solver} (hS : S.Correct) : ∃ X : Vectors, X.Correct S := by
  classical
  refine ⟨⟨fun {k} M => if h : M.IsHermitian then
      of fun i j => (h.eigenvectorUnitary : Matrix (Fin k) (Fin k) ℝ) i (Tuple.sort h.eigenvalues j) else 1,
    fun {k} M => if h : M.IsHermitian then
      of fun i j => (h.eigenvectorUnitary : Matrix (Fin k) (Fin k) ℂ) i (Tuple.sort h.eigenvalues j)
      else 1⟩, ?_, ?_⟩
  · intro k M h
    dsimp only
    rw [dif_pos h]
    have e : (fun i : Fin k => nth (S.real M) i) = h.eigenvalues ∘ Tuple.sort h.eigenvalues := by
      funext i
      refine sorted_list _ _ (hS.real M h).1 ?_ i
      rw [(hS.real M h).2, h.roots_charpoly_eq_eigenvalues]
      rfl
    rw [e]
    exact diag_sorted M h
  · intro k M h
    dsimp only
    rw [dif_pos h]
    have e : (fun i : Fin k => nth (S.complex M) i) = h.eigenvalues ∘ Tuple.sort h.eigenvalues := by
      funext i
      refine sorted_list _ _ (hS.complex M h).1 ?_ i
      refine Multiset.map_injective Complex.ofReal_injective ?_
      rw [Multiset.map_coe, (hS.complex M h).2, h.roots_charpoly_eq_eigenvalues, Multiset.map_map]
      rfl
    rw [e]
    exact diag_sorted M h

/-- The sum over the eigenvalues. -/
theorem sum_real {S : Solver} (hS : S.Correct) (M : Matrix (Fin m) (Fin m) ℝ) (h : M.IsHermitian)
    (f : ℝ → ℝ) : ∑ i : Fin m, f (nth (S.real M) i) = Spec.real M f := by
  have e : ∀ i : Fin m, nth (S.real M) i = (h.eigenvalues ∘ Tuple.sort h.eigenvalues) i := fun i => by
    refine sorted_list _ _ (hS.real M h).1 ?_ i
    rw [(hS.real M h).2, h.roots_charpoly_eq_eigenvalues]
    rfl
  simp only [e, Function.comp_apply]
  rw [Equiv.sum_comp (Tuple.sort h.eigenvalues) fun i => f (h.eigenvalues i), Spec.real,
    h.roots_charpoly_eq_eigenvalues, Multiset.map_map]
  rfl

theorem sum_complex {S : Solver} (hS : S.Correct) (M : Matrix (Fin m) (Fin m) ℂ) (h : M.IsHermitian)
    (f : ℝ → ℝ) : ∑ i : Fin m, f (nth (S.complex M) i) = Spec.complex M f := by
  have e : ∀ i : Fin m, nth (S.complex M) i = (h.eigenvalues ∘ Tuple.sort h.eigenvalues) i := fun i => by
    refine sorted_list _ _ (hS.complex M h).1 ?_ i
    refine Multiset.map_injective Complex.ofReal_injective ?_
    rw [Multiset.map_coe, (hS.complex M h).2, h.roots_charpoly_eq_eigenvalues, Multiset.map_map]
    rfl
  simp only [e, Function.comp_apply]
  rw [Equiv.sum_comp (Tuple.sort h.eigenvalues) fun i => f (h.eigenvalues i), Spec.complex,
    h.roots_charpoly_eq_eigenvalues, Multiset.map_map]
  rfl

end Verif.Weinberg
