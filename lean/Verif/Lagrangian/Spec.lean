import Mathlib.Analysis.SpecialFunctions.Sqrt
import Mathlib.Analysis.Complex.Basic
import Mathlib.Analysis.Complex.Trigonometric
import Mathlib.Data.Fin.VecNotation
import Mathlib.Algebra.BigOperators.Fin
import Mathlib.Tactic.Ring
import Mathlib.Tactic.LinearCombination
import Mathlib.Tactic.FinCases

/-!
# The documented Lagrangians

The headers of the models document the scalar potential `-L_S` in terms of complex doublets, the
covariant derivative of the gauge interactions and the Yukawa interactions.  This file gives the
vocabulary: doublets of real fields, their products `Φ† Ψ`, and the covariant derivative.
-/

namespace Verif.Lagrangian.Spec

open Complex

/-- `Φ = 1/√2 (a + i b, c + i d)`, e.g. ClassPotentialC2HDM.h:42-49. -/
noncomputable def doublet (a b c d : ℝ) : Fin 2 → ℂ :=
  ![(a + b * I) / (√2 : ℝ), (c + d * I) / (√2 : ℝ)]

/-- `Φ† Ψ` -/
noncomputable def dagger (Φ Ψ : Fin 2 → ℂ) : ℂ := ∑ k, (starRingEnd ℂ) (Φ k) * Ψ k

/-- `z + c.c.` -/
noncomputable def plusCC (z : ℂ) : ℂ := z + (starRingEnd ℂ) z

/-- `D_μ Φ = -i/2 ((g' B + g W3, g (W1 - i W2)), (g (W1 + i W2), g' B - g W3)) Φ` with the gauge
fields `[W1, W2, W3, B]`, e.g. ClassPotentialC2HDM.h:50-54. -/
noncomputable def covariant (g gs : ℝ) (W : Fin 4 → ℝ) (Φ : Fin 2 → ℂ) : Fin 2 → ℂ :=
  ![-I / 2 * ((gs * W 3 + g * W 2) * Φ 0 + g * (W 0 - I * W 1) * Φ 1),
    -I / 2 * (g * (W 0 + I * W 1) * Φ 0 + (gs * W 3 - g * W 2) * Φ 1)]

theorem sqrt2_ne : ((√2 : ℝ) : ℂ) ≠ 0 := by
  rw [Ne, Complex.ofReal_eq_zero]
  positivity

theorem sqrt2_sq : ((√2 : ℝ) : ℂ) * ((√2 : ℝ) : ℂ) = 2 := by
  rw [← Complex.ofReal_mul, Real.mul_self_sqrt (by norm_num)]
  norm_num

theorem sqrt2_inv_sq : ((√2 : ℝ) : ℂ)⁻¹ * ((√2 : ℝ) : ℂ)⁻¹ = 1 / 2 := by
  rw [← mul_inv, sqrt2_sq]; norm_num

/-- Real and imaginary part of `Φ† Ψ`. -/
theorem dagger_doublet (a b c d e f g h : ℝ) :
    dagger (doublet a b c d) (doublet e f g h) =
      (((a * e + b * f + c * g + d * h) / 2 : ℝ) : ℂ) +
        (((a * f - b * e + c * h - d * g) / 2 : ℝ) : ℂ) * I := by
  unfold dagger doublet
  simp only [Fin.sum_univ_two, Matrix.cons_val_zero, Matrix.cons_val_one, map_inv₀, map_add,
    map_mul, Complex.conj_ofReal, Complex.conj_I, div_eq_mul_inv]
  push_cast
  have h2 := sqrt2_inv_sq
  have hI := Complex.I_mul_I
  linear_combination ((a - b * I) * (e + f * I) + (c - d * I) * (g + h * I)) * h2 -
    1 / 2 * (b * f + d * h) * hI

/-- The gauge interactions of a doublet: `(D Φ)† (D Φ)` is one eighth of the square of
`g W_a (i σ_a φ) + g' B (i φ)` in real components. -/
theorem covariant_doublet (g gs : ℝ) (W : Fin 4 → ℝ) (a b c d : ℝ) :
    dagger (covariant g gs W (doublet a b c d)) (covariant g gs W (doublet a b c d)) =
      ((((-(g * W 0 * d) + g * W 1 * c - g * W 2 * b - gs * W 3 * b) ^ 2 +
        (g * W 0 * c + g * W 1 * d + g * W 2 * a + gs * W 3 * a) ^ 2 +
        (-(g * W 0 * b) - g * W 1 * a + g * W 2 * d - gs * W 3 * d) ^ 2 +
        (g * W 0 * a - g * W 1 * b - g * W 2 * c + gs * W 3 * c) ^ 2) / 8 : ℝ) : ℂ) := by
  have h : covariant g gs W (doublet a b c d) =
      doublet ((-(-(g * W 0 * d) + g * W 1 * c - g * W 2 * b - gs * W 3 * b)) / 2)
        ((-(g * W 0 * c + g * W 1 * d + g * W 2 * a + gs * W 3 * a)) / 2)
        ((-(-(g * W 0 * b) - g * W 1 * a + g * W 2 * d - gs * W 3 * d)) / 2)
        ((-(g * W 0 * a - g * W 1 * b - g * W 2 * c + gs * W 3 * c)) / 2) := by
    have hI : I ^ 3 = -I := by rw [pow_succ, Complex.I_sq]; ring
    unfold covariant doublet
    funext k
    fin_cases k
    · simp only [Fin.zero_eta, Matrix.cons_val_zero, Matrix.cons_val_one, div_eq_mul_inv]
      push_cast
      ring_nf
      simp only [Complex.I_sq, hI]
      ring
    · simp only [Fin.mk_one, Matrix.cons_val_zero, Matrix.cons_val_one, div_eq_mul_inv]
      push_cast
      ring_nf
      simp only [Complex.I_sq, hI]
      ring
  rw [h, dagger_doublet]
  have h0 : ∀ x y z w : ℝ, x * y - y * x + z * w - w * z = 0 := by intros; ring
  rw [h0]
  push_cast
  ring

/-- A doublet multiplied by `exp(i θ σ_a)` for `a = 0, 1, 2` and by `exp(i θ)` for `a = 3`. -/
noncomputable def gaugeRotation (a : Fin 4) (θ : ℝ) (Φ : Fin 2 → ℂ) : Fin 2 → ℂ :=
  ![Real.cos θ * Φ 0 + I * Real.sin θ * ![Φ 1, -I * Φ 1, Φ 0, Φ 0] a,
    Real.cos θ * Φ 1 + I * Real.sin θ * ![Φ 0, I * Φ 0, -Φ 1, Φ 1] a]

/-- The same in real components. -/
noncomputable def turn (a : Fin 4) (θ x y z w : ℝ) : Fin 4 → ℝ :=
  fun k => Real.cos θ * ![x, y, z, w] k +
    Real.sin θ * ![![-w, z, -y, x], ![z, w, -x, -y], ![-y, x, w, -z], ![-y, x, -w, z]] a k

theorem gaugeRotation_doublet (a : Fin 4) (θ x y z w : ℝ) :
    doublet (turn a θ x y z w 0) (turn a θ x y z w 1) (turn a θ x y z w 2) (turn a θ x y z w 3) =
      gaugeRotation a θ (doublet x y z w) := by
  unfold doublet gaugeRotation turn
  generalize Real.cos θ = c
  generalize Real.sin θ = s
  funext k
  fin_cases a <;> fin_cases k <;> apply Complex.ext <;>
    simp [div_eq_mul_inv, -Complex.ofReal_cos, -Complex.ofReal_sin] <;> ring

/-- The potential of two doublets with the couplings of the headers of the models with two
doublets, e.g. ClassPotentialC2HDM.h:22-30. -/
noncomputable def twoDoublet (u1 u2 : ℝ) (m12 : ℂ) (l1 l2 l3 l4 : ℝ) (l5 l6 : ℂ)
    (Φ₁ Φ₂ : Fin 2 → ℂ) : ℂ :=
  u1 * dagger Φ₁ Φ₁ + u2 * dagger Φ₂ Φ₂ + l1 / 2 * dagger Φ₁ Φ₁ ^ 2 + l2 / 2 * dagger Φ₂ Φ₂ ^ 2 +
    l3 * dagger Φ₁ Φ₁ * dagger Φ₂ Φ₂ + l4 * dagger Φ₁ Φ₂ * dagger Φ₂ Φ₁ +
    plusCC (l5 / 2 * dagger Φ₁ Φ₂ ^ 2 - m12 * dagger Φ₁ Φ₂ + l6 * dagger Φ₁ Φ₁ * dagger Φ₁ Φ₂)

/-- The same in real components. -/
theorem twoDoublet_real (u1 u2 : ℝ) (m12 : ℂ) (l1 l2 l3 l4 : ℝ) (l5 l6 : ℂ)
    (a b c d e f g h : ℝ) :
    twoDoublet u1 u2 m12 l1 l2 l3 l4 l5 l6 (doublet a b c d) (doublet e f g h) =
      ((u1 * ((a ^ 2 + b ^ 2 + c ^ 2 + d ^ 2) / 2) + u2 * ((e ^ 2 + f ^ 2 + g ^ 2 + h ^ 2) / 2) +
        l1 / 2 * ((a ^ 2 + b ^ 2 + c ^ 2 + d ^ 2) / 2) ^ 2 +
        l2 / 2 * ((e ^ 2 + f ^ 2 + g ^ 2 + h ^ 2) / 2) ^ 2 +
        l3 * ((a ^ 2 + b ^ 2 + c ^ 2 + d ^ 2) / 2) * ((e ^ 2 + f ^ 2 + g ^ 2 + h ^ 2) / 2) +
        l4 * (((a * e + b * f + c * g + d * h) / 2) ^ 2 +
          ((a * f - b * e + c * h - d * g) / 2) ^ 2) +
        (l5.re * (((a * e + b * f + c * g + d * h) / 2) ^ 2 -
          ((a * f - b * e + c * h - d * g) / 2) ^ 2) -
          2 * l5.im * ((a * e + b * f + c * g + d * h) / 2) *
            ((a * f - b * e + c * h - d * g) / 2)) -
        2 * (m12.re * ((a * e + b * f + c * g + d * h) / 2) -
          m12.im * ((a * f - b * e + c * h - d * g) / 2)) +
        2 * ((a ^ 2 + b ^ 2 + c ^ 2 + d ^ 2) / 2) *
          (l6.re * ((a * e + b * f + c * g + d * h) / 2) -
          l6.im * ((a * f - b * e + c * h - d * g) / 2)) : ℝ) : ℂ) := by
  have e11 : dagger (doublet a b c d) (doublet a b c d) =
      (((a ^ 2 + b ^ 2 + c ^ 2 + d ^ 2) / 2 : ℝ) : ℂ) := by
    rw [dagger_doublet]; push_cast; ring
  have e22 : dagger (doublet e f g h) (doublet e f g h) =
      (((e ^ 2 + f ^ 2 + g ^ 2 + h ^ 2) / 2 : ℝ) : ℂ) := by
    rw [dagger_doublet]; push_cast; ring
  have e12 := dagger_doublet a b c d e f g h
  have e21 : dagger (doublet e f g h) (doublet a b c d) =
      (((a * e + b * f + c * g + d * h) / 2 : ℝ) : ℂ) -
        (((a * f - b * e + c * h - d * g) / 2 : ℝ) : ℂ) * I := by
    rw [dagger_doublet]; push_cast; ring
  unfold twoDoublet plusCC
  rw [e11, e22, e12, e21]
  generalize (a ^ 2 + b ^ 2 + c ^ 2 + d ^ 2) / 2 = A
  generalize (e ^ 2 + f ^ 2 + g ^ 2 + h ^ 2) / 2 = B
  generalize (a * e + b * f + c * g + d * h) / 2 = x
  generalize (a * f - b * e + c * h - d * g) / 2 = y
  apply Complex.ext <;> simp [pow_two, div_eq_mul_inv] <;> ring

end Verif.Lagrangian.Spec
