import Mathlib.LinearAlgebra.Matrix.Hermitian
import Mathlib.LinearAlgebra.Matrix.ToLin
import Mathlib.LinearAlgebra.Matrix.DotProduct
import Mathlib.Analysis.Complex.Basic
import Verif.Eigen.Model

/-!
# What derivatives of eigenvalues are
-/

namespace Verif.Eigen.Spec

open Matrix

/-- A correct eigensolver: orthonormal eigenvectors for every Hermitian matrix. -/
def IsSolver (solve : SelfAdjoint) : Prop :=
  ∀ (n : ℕ) (A : Matrix (Fin n) (Fin n) ℂ), A.IsHermitian →
    (solve n A).vectorsᴴ * (solve n A).vectors = 1 ∧
    A * (solve n A).vectors = (solve n A).vectors * diagonal fun i => ((solve n A).values i : ℂ)

/-- The eigenvectors of `M` with the eigenvalue `l` that to first order in `D` keep their direction, while the
eigenvalue changes with the derivative `m`. -/
def firstOrder {n : ℕ} (M D : Matrix (Fin n) (Fin n) ℂ) (l m : ℝ) : Submodule ℂ (Fin n → ℂ) where
  carrier := {v | M *ᵥ v = (l : ℂ) • v ∧ ∀ w, M *ᵥ w = (l : ℂ) • w → star w ⬝ᵥ (D *ᵥ v - (m : ℂ) • v) = 0}
  add_mem' := by
    rintro v w ⟨h1, h2⟩ ⟨h3, h4⟩
    refine ⟨by rw [mulVec_add, h1, h3, smul_add], fun u hu => ?_⟩
    have := congrArg₂ (· + ·) (h2 u hu) (h4 u hu)
    simp only [← dotProduct_add, add_zero] at this
    rw [← this]
    congr 1
    rw [mulVec_add, smul_add]
    abel
  zero_mem' := ⟨by simp, fun w _ => by simp⟩
  smul_mem' := by
    rintro c v ⟨h1, h2⟩
    refine ⟨by rw [mulVec_smul, h1, smul_comm], fun w hw => ?_⟩
    rw [mulVec_smul, smul_comm, ← smul_sub, dotProduct_smul, h2 w hw, smul_zero]

/-- `l` is an eigenvalue. -/
def IsEigenvalue {n : ℕ} (M : Matrix (Fin n) (Fin n) ℂ) (l : ℝ) : Prop := ∃ v, v ≠ 0 ∧ M *ᵥ v = (l : ℂ) • v

/-- Different eigenvalues are more than 10⁻⁶ apart, and only the eigenvalue zero is below 10⁻⁶. -/
structure Separated {n : ℕ} (M : Matrix (Fin n) (Fin n) ℂ) : Prop where
  apart : ∀ l l', IsEigenvalue M l → IsEigenvalue M l' → l = l' ∨ 1 / 10 ^ 6 < |l - l'|
  zero : ∀ l, IsEigenvalue M l → l = 0 ∨ 1 / 10 ^ 6 ≤ |l|

end Verif.Eigen.Spec
