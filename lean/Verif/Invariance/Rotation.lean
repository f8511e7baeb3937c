import Verif.Lagrangian.Spec
import Verif.Lagrangian.Invariance
import Mathlib.LinearAlgebra.UnitaryGroup
import Mathlib.LinearAlgebra.Matrix.Notation
import Mathlib.Tactic.FinCases
import Mathlib.Tactic.LinearCombination

/-!
# Rotations of doublets
-/

set_option linter.unusedSimpArgs false
set_option linter.unnecessarySimpa false

namespace Verif.Invariance

open Verif.Lagrangian.Spec Matrix
open scoped BigOperators ComplexConjugate

/-- The scalar product of the real components does not change. -/
theorem turn_even (a : Fin 4) (θ x y z w x' y' z' w' : ℝ) :
    turn a θ x y z w 0 * turn a θ x' y' z' w' 0 + turn a θ x y z w 1 * turn a θ x' y' z' w' 1 +
      turn a θ x y z w 2 * turn a θ x' y' z' w' 2 + turn a θ x y z w 3 * turn a θ x' y' z' w' 3 =
    x * x' + y * y' + z * z' + w * w' := by
  have h := Real.cos_sq_add_sin_sq θ
  unfold turn
  generalize Real.cos θ = c at *
  generalize Real.sin θ = s at *
  fin_cases a <;> simp <;>
    linear_combination (x * x' + y * y' + z * z' + w * w') * h

/-- The antisymmetric product of the real components does not change. -/
theorem turn_odd (a : Fin 4) (θ x y z w x' y' z' w' : ℝ) :
    turn a θ x y z w 0 * turn a θ x' y' z' w' 1 - turn a θ x y z w 1 * turn a θ x' y' z' w' 0 +
      turn a θ x y z w 2 * turn a θ x' y' z' w' 3 - turn a θ x y z w 3 * turn a θ x' y' z' w' 2 =
    x * y' - y * x' + z * w' - w * z' := by
  have h := Real.cos_sq_add_sin_sq θ
  unfold turn
  generalize Real.cos θ = c at *
  generalize Real.sin θ = s at *
  fin_cases a <;> simp <;>
    linear_combination (x * y' - y * x' + z * w' - w * z') * h

theorem turn_square (a : Fin 4) (θ x y z w : ℝ) :
    turn a θ x y z w 0 ^ 2 + turn a θ x y z w 1 ^ 2 + turn a θ x y z w 2 ^ 2 + turn a θ x y z w 3 ^ 2 =
      x ^ 2 + y ^ 2 + z ^ 2 + w ^ 2 := by
  have h := turn_even a θ x y z w x y z w
  linear_combination h

/-- The matrix of the rotation. -/
noncomputable def rotationMatrix (a : Fin 4) (θ : ℝ) : Matrix (Fin 2) (Fin 2) ℂ :=
  let c : ℂ := (Real.cos θ : ℝ)
  let s : ℂ := (Real.sin θ : ℝ)
  ![!![c, Complex.I * s; Complex.I * s, c], !![c, s; -s, c],
    !![c + Complex.I * s, 0; 0, c - Complex.I * s], !![c + Complex.I * s, 0; 0, c + Complex.I * s]] a

theorem gaugeRotation_eq (a : Fin 4) (θ : ℝ) (Φ : Fin 2 → ℂ) :
    gaugeRotation a θ Φ = rotationMatrix a θ *ᵥ Φ := by
  unfold gaugeRotation rotationMatrix
  generalize Real.cos θ = c
  generalize Real.sin θ = s
  have hI := Complex.I_mul_I
  funext k
  fin_cases a <;> fin_cases k <;> simp [mulVec, dotProduct, Fin.sum_univ_two] <;> first
    | ring1
    | linear_combination (-(s : ℂ) * Φ 1) * hI
    | linear_combination ((s : ℂ) * Φ 0) * hI

theorem rotationMatrix_unitary (a : Fin 4) (θ : ℝ) :
    rotationMatrix a θ ∈ unitaryGroup (Fin 2) ℂ := by
  have h := Real.cos_sq_add_sin_sq θ
  rw [mem_unitaryGroup_iff, star_eq_conjTranspose]
  unfold rotationMatrix
  generalize Real.cos θ = c at *
  generalize Real.sin θ = s at *
  have h' : (c : ℂ) ^ 2 + (s : ℂ) ^ 2 = 1 := by exact_mod_cast h
  have hI := Complex.I_mul_I
  ext i j
  fin_cases a <;> fin_cases i <;> fin_cases j <;>
    simp [Matrix.mul_apply, Fin.sum_univ_two, conjTranspose_apply] <;> first
    | ring1
    | linear_combination h'
    | linear_combination h' - (s : ℂ) ^ 2 * hI

/-- The products of doublets do not change. -/
theorem dagger_rotation (a : Fin 4) (θ x y z w x' y' z' w' : ℝ) :
    dagger (gaugeRotation a θ (doublet x y z w)) (gaugeRotation a θ (doublet x' y' z' w')) =
      dagger (doublet x y z w) (doublet x' y' z' w') := by
  rw [← gaugeRotation_doublet, ← gaugeRotation_doublet, dagger_doublet, dagger_doublet, turn_even]
  congr 3
  exact congrArg (· / 2) (turn_odd a θ x y z w x' y' z' w')

end Verif.Invariance
