import Verif.Via.Rates
import Verif.Via.RatesSpec
import Mathlib.Analysis.Calculus.Deriv.Inv
import Mathlib.Analysis.Calculus.Deriv.Pow
import Mathlib.Tactic.FieldSimp
import Mathlib.Tactic.LinearCombination

/-!
# The integrands as real functions and their expansion
-/

namespace Verif.Via

open Complex Spec

/-- Division by a complex number with a real denominator. -/
theorem div_conj (z : ℂ) (a b : ℝ) (h : a ^ 2 + b ^ 2 ≠ 0) :
    z / ((a : ℂ) - b * I) = z * (a + b * I) * ((a ^ 2 + b ^ 2)⁻¹ : ℝ) := by
  have h' : ((a : ℂ) ^ 2 + b ^ 2) ≠ 0 := by exact_mod_cast h
  have hne : (a : ℂ) - b * I ≠ 0 := fun e => h' (by
    have : ((a : ℂ) - b * I) * (a + b * I) = a ^ 2 + b ^ 2 := by ring_nf; rw [I_sq]; ring
    rw [← this, e, zero_mul])
  rw [div_eq_iff hne, mul_assoc, mul_assoc]
  have : (a + b * I) * (((a ^ 2 + b ^ 2)⁻¹ : ℝ) * ((a : ℂ) - b * I)) = 1 := by
    push_cast
    have : (a + b * I) * (((a : ℂ) ^ 2 + b ^ 2)⁻¹ * ((a : ℂ) - b * I)) =
        ((a : ℂ) ^ 2 + b ^ 2)⁻¹ * (a ^ 2 + b ^ 2) := by ring_nf; rw [I_sq]; ring
    rw [this, inv_mul_cancel₀ h']
  rw [this, mul_one]

theorem relaxation_real (k h w g d : ℝ) (hg : 0 < g) (hs : (2 * w + d) ^ 2 + (2 * g) ^ 2 ≠ 0) :
    relaxation k h w g d = k ^ 2 / ((w + d) * w) *
      (2 * h * (2 * g * (w ^ 2 + d * w + g ^ 2 - k ^ 2) + g * d ^ 2) * (d ^ 2 + (2 * g) ^ 2)⁻¹ +
        2 * h * (2 * g * (w * (w + d) - g ^ 2 + k ^ 2) - (2 * w + d) * (g * (2 * w + d))) *
          ((2 * w + d) ^ 2 + (2 * g) ^ 2)⁻¹) := by
  have h1 : d ^ 2 + (2 * g) ^ 2 ≠ 0 := by positivity
  unfold relaxation
  simp only
  congr 1
  rw [show energyL w g d - ((w : ℂ) + g * I) = ((d : ℝ) : ℂ) - ((2 * g : ℝ) : ℂ) * I by
      unfold energyL; push_cast; ring,
    show energyL w g d + energyR w g = ((2 * w + d : ℝ) : ℂ) - ((2 * g : ℝ) : ℂ) * I by
      unfold energyL energyR; push_cast; ring,
    div_conj _ _ _ h1, div_conj _ _ _ hs]
  generalize (d ^ 2 + (2 * g) ^ 2)⁻¹ = x
  generalize ((2 * w + d) ^ 2 + (2 * g) ^ 2)⁻¹ = y
  simp [energyL, energyR, pow_two]
  ring

theorem source_real (k n n' w g d : ℝ) (hg : 0 < g) (hs : (2 * w + d) ^ 2 + (2 * g) ^ 2 ≠ 0) :
    source k n n' w g d = k ^ 2 / ((w + d) * w) *
      (n' * (2 * g * (w ^ 2 + d * w + g ^ 2 - k ^ 2) + g * d ^ 2) * (d ^ 2 + (2 * g) ^ 2)⁻¹ +
        ((2 * n - 1 + n' * d) * (4 * (2 * w + d) * g * (w * (w + d) - g ^ 2 + k ^ 2) -
            g * (2 * w + d) * ((2 * w + d) ^ 2 - 4 * g ^ 2)) -
          2 * g * n' * (((2 * w + d) ^ 2 - 4 * g ^ 2) * (w * (w + d) - g ^ 2 + k ^ 2) + 4 * (2 * w + d) ^ 2 * g ^ 2)) *
          (((2 * w + d) ^ 2 + (2 * g) ^ 2)⁻¹ * ((2 * w + d) ^ 2 + (2 * g) ^ 2)⁻¹)) := by
  have h1 : d ^ 2 + (2 * g) ^ 2 ≠ 0 := by positivity
  have hne : ((d : ℝ) : ℂ) - ((2 * g : ℝ) : ℂ) * I ≠ 0 := fun e => by
    have := congrArg Complex.im e
    simp at this
    exact hg.ne' this
  unfold source
  simp only
  congr 1
  have e1 : energyL w g d - ((w : ℂ) + g * I) = ((d : ℝ) : ℂ) - ((2 * g : ℝ) : ℂ) * I := by
    unfold energyL; push_cast; ring
  have e2 : energyL w g d + energyR w g = ((2 * w + d : ℝ) : ℂ) - ((2 * g : ℝ) : ℂ) * I := by
    unfold energyL energyR; push_cast; ring
  have e3 : ((n : ℂ) + n' * (energyL w g d - w) - (n + n' * ((w : ℂ) + g * I - w))) =
      n' * (((d : ℝ) : ℂ) - ((2 * g : ℝ) : ℂ) * I) := by
    unfold energyL; push_cast; ring
  rw [e3, e1, e2, pow_two, mul_div_mul_right _ _ hne, div_conj _ _ _ h1, pow_two (((2 * w + d : ℝ) : ℂ) - _),
    ← div_div, div_conj _ _ _ hs, div_conj _ _ _ hs]
  generalize (d ^ 2 + (2 * g) ^ 2)⁻¹ = x
  generalize ((2 * w + d) ^ 2 + (2 * g) ^ 2)⁻¹ = y
  simp [energyL, energyR, pow_two]
  ring

end Verif.Via
