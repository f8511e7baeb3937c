import Verif.Eigen.Spec
import Mathlib.Analysis.Matrix.Spectrum

/-!
# There is a correct eigensolver
-/

namespace Verif.Eigen

open Matrix Spec

open Classical in
/-- The spectral theorem as an eigensolver. -/
noncomputable def exSolver : SelfAdjoint := fun n A =>
  if h : A.IsHermitian then ⟨h.eigenvalues, (h.eigenvectorUnitary : Matrix (Fin n) (Fin n) ℂ)⟩ else ⟨0, 1⟩

theorem exSolver_correct : IsSolver exSolver := by
  intro n A h
  have hu : (h.eigenvectorUnitary : Matrix (Fin n) (Fin n) ℂ)ᴴ * (h.eigenvectorUnitary : Matrix (Fin n) (Fin n) ℂ) = 1 :=
    Unitary.coe_star_mul_self h.eigenvectorUnitary
  simp only [exSolver, dif_pos h]
  refine ⟨hu, ?_⟩
  ext i j
  have := congrFun (h.mulVec_eigenvectorBasis j) i
  rw [mul_diagonal]
  have h2 : (A * (h.eigenvectorUnitary : Matrix (Fin n) (Fin n) ℂ)) i j = (A *ᵥ ⇑(h.eigenvectorBasis j)) i := rfl
  rw [h2, this]
  simp [IsHermitian.eigenvectorUnitary_apply, mul_comm]

end Verif.Eigen
