import Verif.Thermal.InterpProps
import Mathlib.Tactic.NormNum

/-!
# The values of the thermal functions (C63)

The published expansions written out: a change of one of their coefficients, constants or limits changes them.
-/

namespace Verif.Thermal

open Outcome

/-- The expansion of the fermionic function for small arguments with the terms up to the fourth, as published. -/
noncomputable def Spec.fermionSmall (z3 z5 z7 x : ℝ) : ℝ :=
  -7 * Real.pi ^ 4 / 360 + Real.pi ^ 2 / 24 * x +
    x ^ 2 / 32 * (Real.log x - (3 / 2 + 2 * Real.log (4 * Real.pi) - 2 * 0.5772156649015328606065 - 2 * Real.log 4)) -
    7 * z3 / (384 * Real.pi ^ 2) * x ^ 3 + 31 * z5 / (4096 * Real.pi ^ 4) * x ^ 4 -
    127 * z7 / (32768 * Real.pi ^ 6) * x ^ 5

/-- The expansion of the bosonic function with the terms up to the third. -/
noncomputable def Spec.bosonSmall (z3 z5 x : ℝ) : ℝ :=
  -Real.pi ^ 4 / 45 + Real.pi ^ 2 / 12 * x - Real.pi / 6 * x ^ (3 / 2 : ℝ) -
    x ^ 2 / 32 * (Real.log x - (3 / 2 + 2 * Real.log (4 * Real.pi) - 2 * 0.5772156649015328606065)) +
    z3 / (384 * Real.pi ^ 2) * x ^ 3 - z5 / (4096 * Real.pi ^ 4) * x ^ 4

theorem fermionLowCoeff_values (zeta : Nat → ℝ) : fermionLowCoeff zeta 2 = 7 * zeta 3 / 24 ∧
    fermionLowCoeff zeta 3 = 31 * zeta 5 / 64 ∧ fermionLowCoeff zeta 4 = 127 * zeta 7 / 128 := by
  refine ⟨?_, ?_, ?_⟩ <;> (norm_num [fermionLowCoeff, Nat.doubleFactorial] <;> ring)

theorem bosonLowCoeff_values (zeta : Nat → ℝ) : bosonLowCoeff zeta 2 = zeta 3 / 24 ∧
    bosonLowCoeff zeta 3 = zeta 5 / 64 := by
  refine ⟨?_, ?_⟩ <;> norm_num [bosonLowCoeff, Nat.doubleFactorial]
  ring

theorem sum_two_three (f : Nat → ℝ) : ∑ l ∈ Finset.Icc 2 3, f l = f 2 + f 3 := by
  rw [Finset.sum_Icc_succ_top (by norm_num)]; simp

theorem sum_two_four (f : Nat → ℝ) : ∑ l ∈ Finset.Icc 2 4, f l = f 2 + f 3 + f 4 := by
  rw [Finset.sum_Icc_succ_top (by norm_num), sum_two_three]

/-- Below 2.216079120 the value for fermions is the published expansion, with the sign of the code and its shift. -/
theorem C63_fermion_value (zeta : Nat → ℝ) (x : ℝ) (h0 : 0 < x) (h1 : x < 2.216079120) :
    fermionInterpolated zeta x 0 = -Spec.fermionSmall (zeta 3) (zeta 5) (zeta 7) x + 0.01560316619 := by
  have hpi := Real.pi_ne_zero
  obtain ⟨c2, c3, c4⟩ := fermionLowCoeff_values zeta
  have ht : ¬ fermionTheta ≤ x := by unfold fermionTheta; norm_num at h1 ⊢; linarith
  rw [fermionInterpolated, if_neg ht, if_pos rfl, fermionLow]
  simp only [h0.ne', false_and, if_false, if_true, sum_two_four, c2, c3, c4, fermionShift, eulerGamma,
    Spec.fermionSmall]
  field_simp
  ring

/-- Below 9.469230596 the value for bosons is the published expansion. -/
theorem C63_boson_value (zeta : Nat → ℝ) (s : Spline) (x : ℝ) (h0 : 0 < x) (h1 : x < 9.469230596) :
    bosonInterpolated zeta s x 0 = Spec.bosonSmall (zeta 3) (zeta 5) x := by
  have hpi := Real.pi_ne_zero
  obtain ⟨c2, c3⟩ := bosonLowCoeff_values zeta
  have ht : ¬ bosonTheta ≤ x := by unfold bosonTheta; norm_num at h1 ⊢; linarith
  rw [bosonInterpolated, if_neg ht, if_pos h0.le, bosonLow]
  simp only [h0.ne', false_and, if_false, if_true, sum_two_three, c2, c3, eulerGamma, Spec.bosonSmall]
  field_simp
  ring

/-- From these limits on it is the expansion for large arguments, for bosons with the shift that closes the gap. -/
theorem C63_large_values (zeta : Nat → ℝ) (s : Spline) (x : ℝ) :
    (2.216079120 ≤ x → fermionInterpolated zeta x 0 = Real.exp (-√x) * √(Real.pi / 2 * x ^ (3 / 2 : ℝ)) *
      (1 + 15 / 8 * x ^ (-(1 : ℝ) / 2) + 105 / 128 * x ^ (-(2 : ℝ) / 2) - 315 / 1024 * x ^ (-(3 : ℝ) / 2))) ∧
    (9.469230596 ≤ x → bosonInterpolated zeta s x 0 = -Real.exp (-√x) * √(Real.pi / 2 * x ^ (3 / 2 : ℝ)) *
      (1 + 15 / 8 * x ^ (-(1 : ℝ) / 2) + 105 / 128 * x ^ (-(2 : ℝ) / 2) - 315 / 1024 * x ^ (-(3 : ℝ) / 2)) -
      0.0063108787) := by
  obtain ⟨k0, k1, k2, k3⟩ := highCoeff_values
  constructor <;> intro h
  · have ht : fermionTheta ≤ x := by unfold fermionTheta; norm_num at h ⊢; linarith
    rw [fermionInterpolated, if_pos ht, high, if_pos rfl]
    simp [Finset.sum_range_succ, k0, k1, k2, k3]
    left
    ring
  · have ht : bosonTheta ≤ x := by unfold bosonTheta; norm_num at h ⊢; linarith
    rw [bosonInterpolated, if_pos ht, high, if_pos rfl, if_pos rfl, bosonShift]
    simp [Finset.sum_range_succ, k0, k1, k2, k3]
    norm_num
    left
    ring

example : fermionInterpolated (fun _ => 1) 1 0 = -Spec.fermionSmall 1 1 1 1 + 0.01560316619 :=
  C63_fermion_value _ _ (by norm_num) (by norm_num)

example (s : Spline) : bosonInterpolated (fun _ => 1) s 1 0 = Spec.bosonSmall 1 1 1 :=
  C63_boson_value _ _ _ (by norm_num) (by norm_num)

/-- For NaN the fermionic function gives NaN as the value and as the derivative and 0 for any other mode. -/
theorem C63_nan_modes (zeta : Nat → ℝ) (diff : Int) :
    fermionInterpolatedFlt zeta .nan diff = if diff = 0 ∨ diff = 1 then .nan else .fin 0 := by
  simp [fermionInterpolatedFlt]

end Verif.Thermal
