import Verif.Yukawa.Block
import Verif.Lagrangian.Spec
import Mathlib.Tactic.FinCases

/-!
# The mass matrix of the gauge bosons
-/

namespace Verif.Spectrum

open Matrix Polynomial
open scoped BigOperators

variable {n : Nat}

/-- An entry of `MassMatrix` before the mirroring, ClassPotentialOrigin.cpp:2548-2568. -/
noncomputable def gaugeEntry (G : List Nat → ℝ) (D : Matrix (Fin 4) (Fin 4) ℝ) (T : ℝ) (v : Fin n → ℝ)
    (a b : Fin 4) : ℝ :=
  (∑ i : Fin n, ∑ j : Fin n, 1 / 2 * G [(a : Nat), (b : Nat), (i : Nat), (j : Nat)] * v i * v j) +
    if T ≠ 0 then D a b * T ^ 2 else 0

/-- The matrix whose eigenvalues `GaugeMassesSquared` computes, ClassPotentialOrigin.cpp:2546-2576, for
`v` with `NHiggs` components after `SetCurvatureArrays`; `D` is `DebyeGauge`. -/
noncomputable def gaugeMatrix (G : List Nat → ℝ) (D : Matrix (Fin 4) (Fin 4) ℝ) (T : ℝ)
    (v : Fin n → ℝ) : Matrix (Fin 4) (Fin 4) ℝ :=
  fun a b => if b < a then gaugeEntry G D T v b a else gaugeEntry G D T v a b

/-- The mass matrix at zero temperature is determined by its quadratic form. -/
theorem gaugeMatrix_eq (G : List Nat → ℝ) (D : Matrix (Fin 4) (Fin 4) ℝ) (v : Fin n → ℝ)
    (hs : ∀ (a b : Fin 4) (i j : Fin n), G [(a : Nat), (b : Nat), (i : Nat), (j : Nat)] =
      G [(b : Nat), (a : Nat), (i : Nat), (j : Nat)])
    (M : Matrix (Fin 4) (Fin 4) ℝ) (hM : ∀ a b, M a b = M b a)
    (hf : ∀ W : Fin 4 → ℝ, 1 / 4 * ∑ a : Fin 4, ∑ b : Fin 4, ∑ i : Fin n, ∑ j : Fin n,
        G [(a : Nat), (b : Nat), (i : Nat), (j : Nat)] * (W a * (W b * (v i * v j))) =
      1 / 2 * ∑ a, ∑ b, M a b * (W a * W b)) :
    gaugeMatrix G D 0 v = M := by
  have he : gaugeMatrix G D 0 v = fun a b => gaugeEntry G D 0 v a b := by
    ext a b
    unfold gaugeMatrix
    split_ifs with h
    · unfold gaugeEntry
      simp only [hs b a, ne_eq, not_true_eq_false, if_false]
    · rfl
  rw [he]
  apply Yukawa.symmetric_ext
  · intro a b
    unfold gaugeEntry
    simp only [hs a b, ne_eq, not_true_eq_false, if_false]
  · exact hM
  · intro W
    have h := hf W
    have e : ∑ a : Fin 4, ∑ b : Fin 4, gaugeEntry G D 0 v a b * (W a * W b) =
        1 / 2 * ∑ a : Fin 4, ∑ b : Fin 4, ∑ i : Fin n, ∑ j : Fin n,
        G [(a : Nat), (b : Nat), (i : Nat), (j : Nat)] * (W a * (W b * (v i * v j))) := by
      rw [Finset.mul_sum]
      refine Finset.sum_congr rfl fun a _ => ?_
      rw [Finset.mul_sum]
      refine Finset.sum_congr rfl fun b _ => ?_
      unfold gaugeEntry
      simp only [ne_eq, not_true_eq_false, if_false, add_zero]
      rw [Finset.sum_mul, Finset.mul_sum]
      refine Finset.sum_congr rfl fun i _ => ?_
      rw [Finset.sum_mul, Finset.mul_sum]
      exact Finset.sum_congr rfl fun j _ => by ring
    rw [e]
    linear_combination 2 * h

/-- The mass matrix of the gauge bosons for doublets with `N = Σ 2 Φ† Φ` and `s_k = Σ 2 Φ† σ_k Φ`. -/
noncomputable def pauliGauge (g gs N s0 s1 s2 : ℝ) : Matrix (Fin 4) (Fin 4) ℝ :=
  !![g ^ 2 * N / 4, 0, 0, g * gs * s0 / 4;
     0, g ^ 2 * N / 4, 0, g * gs * s1 / 4;
     0, 0, g ^ 2 * N / 4, g * gs * s2 / 4;
     g * gs * s0 / 4, g * gs * s1 / 4, g * gs * s2 / 4, gs ^ 2 * N / 4]

theorem pauliGauge_symm (g gs N s0 s1 s2 : ℝ) (a b : Fin 4) :
    pauliGauge g gs N s0 s1 s2 a b = pauliGauge g gs N s0 s1 s2 b a := by
  fin_cases a <;> fin_cases b <;> rfl

/-- Its eigenvalues. -/
theorem pauliGauge_charpoly (g gs N s0 s1 s2 : ℝ) :
    (pauliGauge g gs N s0 s1 s2).charpoly =
      (X - C (g ^ 2 * N / 4)) ^ 2 * ((X - C (g ^ 2 * N / 4)) * (X - C (gs ^ 2 * N / 4)) -
        C (g ^ 2 * gs ^ 2 * (s0 ^ 2 + s1 ^ 2 + s2 ^ 2) / 16)) := by
  have e2 : (C (g ^ 2 * gs ^ 2 * (s0 ^ 2 + s1 ^ 2 + s2 ^ 2) / 16) : ℝ[X]) =
      C (g * gs * s0 / 4) * C (g * gs * s0 / 4) + C (g * gs * s1 / 4) * C (g * gs * s1 / 4) +
        C (g * gs * s2 / 4) * C (g * gs * s2 / 4) := by
    rw [← C_mul, ← C_mul, ← C_mul, ← C_add, ← C_add]; congr 1; ring
  unfold Matrix.charpoly
  rw [Matrix.det_succ_row_zero]
  simp only [Fin.sum_univ_four, Matrix.det_fin_three, Matrix.submatrix_apply, charmatrix_apply,
    pauliGauge, of_apply, cons_val', cons_val_zero, cons_val_one, cons_val, Fin.succ_zero_eq_one,
    Fin.succ_one_eq_two]
  simp [Fin.succAbove]
  rw [e2]
  ring

/-- The kinetic term of a doublet. -/
theorem covariant_pauli (g gs : ℝ) (W : Fin 4 → ℝ) (a b c d : ℝ) :
    Lagrangian.Spec.dagger (Lagrangian.Spec.covariant g gs W (Lagrangian.Spec.doublet a b c d))
        (Lagrangian.Spec.covariant g gs W (Lagrangian.Spec.doublet a b c d)) =
      ((1 / 2 * ∑ i, ∑ j, pauliGauge g gs (a ^ 2 + b ^ 2 + c ^ 2 + d ^ 2) (2 * (a * c + b * d))
        (2 * (a * d - b * c)) (a ^ 2 + b ^ 2 - c ^ 2 - d ^ 2) i j * (W i * W j) : ℝ) : ℂ) := by
  rw [Lagrangian.Spec.covariant_doublet]
  congr 1
  simp only [Fin.sum_univ_four, pauliGauge, of_apply, cons_val', cons_val_zero, cons_val_one, cons_val]
  ring

theorem pauliGauge_add (g gs N s0 s1 s2 N' s0' s1' s2' : ℝ) :
    pauliGauge g gs (N + N') (s0 + s0') (s1 + s1') (s2 + s2') =
      pauliGauge g gs N s0 s1 s2 + pauliGauge g gs N' s0' s1' s2' := by
  ext i j
  fin_cases i <;> fin_cases j <;> simp [pauliGauge] <;> ring

section

variable (g gs : ℝ) (G : List Nat → ℝ) (D : Matrix (Fin 4) (Fin 4) ℝ) (v : Fin n → ℝ)
  (hs : ∀ (a b : Fin 4) (i j : Fin n), G [(a : Nat), (b : Nat), (i : Nat), (j : Nat)] =
      G [(b : Nat), (a : Nat), (i : Nat), (j : Nat)])
include hs

/-- The mass matrix in a theory with one doublet. -/
theorem gaugeMatrix_one (a b c d : ℝ)
    (hf : ∀ W : Fin 4 → ℝ, ((1 / 4 * ∑ a : Fin 4, ∑ b : Fin 4, ∑ i : Fin n, ∑ j : Fin n,
        G [(a : Nat), (b : Nat), (i : Nat), (j : Nat)] * (W a * (W b * (v i * v j))) : ℝ) : ℂ) =
      Lagrangian.Spec.dagger (Lagrangian.Spec.covariant g gs W (Lagrangian.Spec.doublet a b c d))
        (Lagrangian.Spec.covariant g gs W (Lagrangian.Spec.doublet a b c d))) :
    gaugeMatrix G D 0 v = pauliGauge g gs (a ^ 2 + b ^ 2 + c ^ 2 + d ^ 2) (2 * (a * c + b * d))
        (2 * (a * d - b * c)) (a ^ 2 + b ^ 2 - c ^ 2 - d ^ 2) := by
  refine gaugeMatrix_eq G D v hs _ (pauliGauge_symm _ _ _ _ _ _) fun W => ?_
  have h := hf W
  rw [covariant_pauli] at h
  exact_mod_cast h

/-- The mass matrix in a theory with two doublets. -/
theorem gaugeMatrix_two (a b c d a' b' c' d' : ℝ)
    (hf : ∀ W : Fin 4 → ℝ, ((1 / 4 * ∑ a : Fin 4, ∑ b : Fin 4, ∑ i : Fin n, ∑ j : Fin n,
        G [(a : Nat), (b : Nat), (i : Nat), (j : Nat)] * (W a * (W b * (v i * v j))) : ℝ) : ℂ) =
      Lagrangian.Spec.dagger (Lagrangian.Spec.covariant g gs W (Lagrangian.Spec.doublet a b c d))
        (Lagrangian.Spec.covariant g gs W (Lagrangian.Spec.doublet a b c d)) +
      Lagrangian.Spec.dagger (Lagrangian.Spec.covariant g gs W (Lagrangian.Spec.doublet a' b' c' d'))
        (Lagrangian.Spec.covariant g gs W (Lagrangian.Spec.doublet a' b' c' d'))) :
    gaugeMatrix G D 0 v = pauliGauge g gs
      ((a ^ 2 + b ^ 2 + c ^ 2 + d ^ 2) + (a' ^ 2 + b' ^ 2 + c' ^ 2 + d' ^ 2))
      (2 * (a * c + b * d) + 2 * (a' * c' + b' * d'))
      (2 * (a * d - b * c) + 2 * (a' * d' - b' * c'))
      ((a ^ 2 + b ^ 2 - c ^ 2 - d ^ 2) + (a' ^ 2 + b' ^ 2 - c' ^ 2 - d' ^ 2)) := by
  refine gaugeMatrix_eq G D v hs _ (pauliGauge_symm _ _ _ _ _ _) fun W => ?_
  have h := hf W
  rw [covariant_pauli, covariant_pauli, ← Complex.ofReal_add] at h
  have h2 := Complex.ofReal_injective h
  rw [h2, pauliGauge_add]
  simp only [Matrix.add_apply, add_mul, Finset.sum_add_distrib]
  ring

end

end Verif.Spectrum
