import Verif.Kfactors.Integrand
import Verif.Kfactors.Radial
import Verif.Kfactors.Series
import Mathlib.MeasureTheory.Integral.IntegralEqImproper
import Mathlib.Analysis.SpecialFunctions.Gaussian.GaussianIntegral
import Mathlib.Analysis.SpecialFunctions.Exp
import Mathlib.Tactic.NormNum
import Mathlib.Analysis.Complex.ExponentialBounds

/-!
# Norms, massless limits and the cut-off
-/

set_option linter.unusedSimpArgs false

namespace Verif.Kfactors

open Outcome Real MeasureTheory Filter

/-! ### Fermions -/

theorem energy_zero (p : Fin 3 → ℝ) : Spec.energy 0 p = radius p := by rw [Spec.energy, radius, add_zero]

theorem energy_radius (m2 : ℝ) (p : Fin 3 → ℝ) : Spec.energy m2 p = √ (radius p ^ 2 + m2) := by
  rw [Spec.energy, radius_sq]

theorem fermion_d (T E : ℝ) : Spec.d 1 T E = -(1 / T) * (exp (E / T) / (exp (E / T) + 1) ^ 2) := by
  rw [d_eq 1 T E (by positivity), show 1 / T * E = E / T by ring, mul_div_assoc]

theorem fermion_dd (T E : ℝ) : Spec.dd 1 T E =
    (1 / T) ^ 2 * (exp (E / T) * (exp (E / T) - 1) / (exp (E / T) + 1) ^ 3) := by
  rw [dd_eq 1 T E (by positivity), show 1 / T * E = E / T by ring]
  ring

theorem fermion_d_nonpos {T : ℝ} (hT : 0 < T) (E : ℝ) : Spec.d 1 T E < 0 := by
  rw [fermion_d]
  have : 0 < 1 / T * (exp (E / T) / (exp (E / T) + 1) ^ 2) := by positivity
  linarith

theorem fermion_d_bound {T : ℝ} (hT : 0 < T) (E : ℝ) : |Spec.d 1 T E| ≤ 1 / T * exp (-(1 / T * E)) := by
  rw [abs_of_neg (fermion_d_nonpos hT E), fermion_d, ← neg_mul, neg_neg]
  refine mul_le_mul_of_nonneg_left ?_ (by positivity)
  rw [show -(1 / T * E) = -(E / T) by ring, exp_neg, div_le_iff₀ (by positivity), inv_mul_eq_div,
    le_div_iff₀ (exp_pos _)]
  nlinarith [exp_pos (E / T)]

theorem fermion_dd_bound {T : ℝ} (E : ℝ) : |Spec.dd 1 T E| ≤ (1 / T) ^ 2 * exp (-(1 / T * E)) := by
  rw [fermion_dd, abs_mul, abs_of_nonneg (sq_nonneg (1 / T))]
  refine mul_le_mul_of_nonneg_left ?_ (sq_nonneg _)
  have hx := exp_pos (E / T)
  rw [show -(1 / T * E) = -(E / T) by ring, exp_neg]
  generalize exp (E / T) = x at hx
  have h1 : |x - 1| ≤ x + 1 := abs_le.2 ⟨by linarith, by linarith⟩
  rw [abs_div, abs_mul, abs_of_pos hx, abs_of_pos (show 0 < (x + 1) ^ 3 by positivity),
    div_le_iff₀ (by positivity), inv_mul_eq_div, le_div_iff₀ hx]
  calc x * |x - 1| * x ≤ x * (x + 1) * x := by gcongr
    _ ≤ (x + 1) ^ 3 := by nlinarith [sq_nonneg x, mul_pos hx hx]

theorem measurable_d : ∀ T, Measurable (Spec.d 1 T) := fun T => by
  rw [show Spec.d 1 T = _ from funext (fermion_d T)]
  fun_prop

theorem measurable_dd : ∀ T, Measurable (Spec.dd 1 T) := fun T => by
  rw [show Spec.dd 1 T = _ from funext (fermion_dd T)]
  fun_prop

theorem integrable_pow_exp (k : ℕ) {b : ℝ} (hb : 0 < b) :
    IntegrableOn (fun r : ℝ => r ^ k * exp (-(b * r))) (Set.Ioi 0) := by
  have h := integrableOn_rpow_mul_exp_neg_mul_rpow (s := k) (p := 1) (b := b)
    (by have := Nat.cast_nonneg (α := ℝ) k; linarith) one_pos hb
  refine h.congr_fun (fun r _ => ?_) measurableSet_Ioi
  simp only [rpow_natCast, rpow_one, neg_mul]

theorem integrable_pow_d (k : ℕ) {T : ℝ} (hT : 0 < T) :
    IntegrableOn (fun r => r ^ k * Spec.d 1 T r) (Set.Ioi 0) := by
  refine Integrable.mono ((integrable_pow_exp k (b := 1 / T) (by positivity)).const_mul (1 / T))
    ((measurable_id.pow_const k).mul (measurable_d T)).aestronglyMeasurable (ae_of_all _ fun r => ?_)
  rw [norm_mul, norm_mul, norm_mul, norm_eq_abs (Spec.d 1 T r), norm_of_nonneg (exp_pos _).le,
    norm_of_nonneg (show 0 ≤ 1 / T by positivity)]
  calc _ ≤ ‖r ^ k‖ * (1 / T * exp (-(1 / T * r))) := by gcongr; exact fermion_d_bound hT r
    _ = _ := by ring

theorem integrable_pow_dd (k : ℕ) {T : ℝ} (hT : 0 < T) :
    IntegrableOn (fun r => r ^ k * Spec.dd 1 T r) (Set.Ioi 0) := by
  refine Integrable.mono ((integrable_pow_exp k (b := 1 / T) (by positivity)).const_mul ((1 / T) ^ 2))
    ((measurable_id.pow_const k).mul (measurable_dd T)).aestronglyMeasurable (ae_of_all _ fun r => ?_)
  rw [norm_mul, norm_mul, norm_mul, norm_eq_abs (Spec.dd 1 T r), norm_of_nonneg (exp_pos _).le,
    norm_of_nonneg (show 0 ≤ (1 / T) ^ 2 by positivity)]
  calc _ ≤ ‖r ^ k‖ * ((1 / T) ^ 2 * exp (-(1 / T * r))) := by gcongr; exact fermion_dd_bound r
    _ = _ := by ring

theorem integral_sq_d {T : ℝ} (hT : 0 < T) : ∫ r in Set.Ioi (0 : ℝ), r ^ 2 * Spec.d 1 T r = -(π ^ 2 / 6) * T ^ 2 := by
  have h := integral_comp_mul_left_Ioi (fun x => x ^ 2 * (exp x / (exp x + 1) ^ 2)) 0 (b := 1 / T) (by positivity)
  rw [mul_zero, integral_fermi, smul_eq_mul] at h
  have e : ∀ r ∈ Set.Ioi (0 : ℝ), r ^ 2 * Spec.d 1 T r =
      -T * ((1 / T * r) ^ 2 * (exp (1 / T * r) / (exp (1 / T * r) + 1) ^ 2)) := fun r _ => by
    rw [fermion_d, show 1 / T * r = r / T by ring]
    field_simp
  rw [setIntegral_congr_fun measurableSet_Ioi e, integral_const_mul, h]
  field_simp

/-- **The norm of `⟨ ⟩`** in closed form is the integral that defines it. -/
theorem C108_norm (T : ℝ) (hT : 0 < T) : ∫ p : Fin 3 → ℝ, Spec.d 1 T (Spec.energy 0 p) = norm1 T := by
  simp only [energy_zero]
  rw [integral_radius, integral_sq_d hT, norm1]
  ring

theorem norm1_neg {T : ℝ} (hT : 0 < T) : norm1 T < 0 := by
  rw [norm1]
  have := pi_pos
  have : 0 < π ^ 3 * T ^ 2 * 2 / 3 := by positivity
  linarith

theorem integral_z (g : ℝ → ℝ) (hm : Measurable g) (hint : IntegrableOn (fun r => r ^ 4 * g r) (Set.Ioi 0)) :
    ∫ p : Fin 3 → ℝ, p 2 ^ 2 * g (radius p) = 4 * π / 3 * ∫ r in Set.Ioi (0 : ℝ), r ^ 4 * g r := by
  have h4 : ∀ r, r ^ 4 * g r = r ^ 2 * (r ^ 2 * g r) := fun r => by ring
  simp only [h4] at hint
  have hi := (integrable_radius fun r => r ^ 2 * g r).2 hint
  have h := integral_component Set.univ (fun _ _ _ => by simp) g (by simpa using hi) hm 2
  rw [Measure.restrict_univ] at h
  rw [h, integral_radius fun r => r ^ 2 * g r]
  simp only [h4]
  ring

theorem tendsto_pow_exp (k : ℕ) {b : ℝ} (hb : 0 < b) :
    Tendsto (fun r : ℝ => r ^ k * exp (-(b * r))) atTop (nhds 0) := by
  have h := (tendsto_pow_mul_exp_neg_atTop_nhds_zero k).comp (tendsto_id.const_mul_atTop hb)
  have h2 := h.const_mul ((1 / b) ^ k)
  rw [mul_zero] at h2
  refine h2.congr fun r => ?_
  simp only [Function.comp, id]
  rw [mul_pow, ← mul_assoc, ← mul_assoc, ← mul_pow, one_div_mul_cancel hb.ne', one_pow, one_mul]

/-- Integration by parts. -/
theorem integral_parts {T : ℝ} (hT : 0 < T) : ∫ r in Set.Ioi (0 : ℝ), r ^ 3 * Spec.dd 1 T r =
    -3 * ∫ r in Set.Ioi (0 : ℝ), r ^ 2 * Spec.d 1 T r := by
  have hd : ∀ r, HasDerivAt (fun r => r ^ 3 * Spec.d 1 T r) (3 * (r ^ 2 * Spec.d 1 T r) + r ^ 3 * Spec.dd 1 T r) r := by
    intro r
    have h1 : HasDerivAt (Spec.d 1 T) (Spec.dd 1 T r) r :=
      (d_deriv 1 T r (by positivity)).differentiableAt.hasDerivAt
    refine ((hasDerivAt_pow 3 r).fun_mul h1).congr_deriv ?_
    push_cast
    ring
  have hlim : Tendsto (fun r => r ^ 3 * Spec.d 1 T r) atTop (nhds 0) := by
    have h := (tendsto_pow_exp 3 (b := 1 / T) (by positivity)).const_mul (1 / T)
    rw [mul_zero] at h
    refine squeeze_zero_norm' ?_ h
    filter_upwards [eventually_ge_atTop 0] with r hr
    rw [norm_mul, norm_of_nonneg (by positivity), norm_eq_abs]
    calc _ ≤ r ^ 3 * (1 / T * exp (-(1 / T * r))) := by gcongr; exact fermion_d_bound hT r
      _ = _ := by ring
  have hi1 := (integrable_pow_d 2 hT).const_mul 3
  have hi2 := integrable_pow_dd 3 hT
  have h := integral_Ioi_of_hasDerivAt_of_tendsto (hd 0).continuousAt.continuousWithinAt (fun r _ => hd r)
    (hi1.add hi2) hlim
  rw [integral_add hi1 hi2, integral_const_mul] at h
  simp at h
  linarith

theorem fermion_distribution_deriv (T r : ℝ) : HasDerivAt (Spec.distribution 1 T) (Spec.d 1 T r) r :=
  (distribution_deriv 1 T r (by positivity)).differentiableAt.hasDerivAt

theorem fermion_bound {T E : ℝ} : |Spec.distribution 1 T E| ≤ exp (-(1 / T * E)) := by
  rw [Spec.distribution, abs_of_pos (by positivity), show -(1 / T * E) = -(E / T) by ring, exp_neg, one_div]
  exact inv_anti₀ (exp_pos _) (by linarith)

theorem integrable_pow_f (k : ℕ) {T : ℝ} (hT : 0 < T) :
    IntegrableOn (fun r => r ^ k * Spec.distribution 1 T r) (Set.Ioi 0) := by
  have hm : Measurable (Spec.distribution 1 T) := by unfold Spec.distribution; fun_prop
  refine Integrable.mono (integrable_pow_exp k (b := 1 / T) (by positivity))
    ((measurable_id.pow_const k).mul hm).aestronglyMeasurable (ae_of_all _ fun r => ?_)
  rw [norm_mul, norm_mul, norm_eq_abs (Spec.distribution 1 T r), norm_of_nonneg (exp_pos _).le]
  gcongr
  exact fermion_bound

theorem integral_parts_f {T : ℝ} (hT : 0 < T) : ∫ r in Set.Ioi (0 : ℝ), r ^ 3 * Spec.d 1 T r =
    -3 * ∫ r in Set.Ioi (0 : ℝ), r ^ 2 * Spec.distribution 1 T r := by
  have hd : ∀ r, HasDerivAt (fun r => r ^ 3 * Spec.distribution 1 T r)
      (3 * (r ^ 2 * Spec.distribution 1 T r) + r ^ 3 * Spec.d 1 T r) r := by
    intro r
    refine ((hasDerivAt_pow 3 r).fun_mul (fermion_distribution_deriv T r)).congr_deriv ?_
    push_cast
    ring
  have hlim : Tendsto (fun r => r ^ 3 * Spec.distribution 1 T r) atTop (nhds 0) := by
    refine squeeze_zero_norm' ?_ (tendsto_pow_exp 3 (b := 1 / T) (by positivity))
    filter_upwards [eventually_ge_atTop 0] with r hr
    rw [norm_mul, norm_of_nonneg (by positivity), norm_eq_abs]
    gcongr
    exact fermion_bound
  have hi1 := (integrable_pow_f 2 hT).const_mul 3
  have hi2 := integrable_pow_d 3 hT
  have h := integral_Ioi_of_hasDerivAt_of_tendsto (hd 0).continuousAt.continuousWithinAt (fun r _ => hd r)
    (hi1.add hi2) hlim
  rw [integral_add hi1 hi2, integral_const_mul] at h
  simp at h
  linarith

theorem integral_Ioi_pos {g : ℝ → ℝ} (hg : ∀ r, 0 < r → 0 < g r) (hi : IntegrableOn g (Set.Ioi 0)) :
    0 < ∫ r in Set.Ioi (0 : ℝ), g r := by
  rw [setIntegral_pos_iff_support_of_nonneg_ae
    ((ae_restrict_iff' measurableSet_Ioi).2 (ae_of_all _ fun r hr => (hg r hr).le)) hi]
  rw [Set.inter_eq_right.2 (show Set.Ioi (0 : ℝ) ⊆ Function.support g from
    fun r hr => Function.mem_support.2 (hg r hr).ne')]
  simp

/-- **Massless fermions**: `K₁ = 1`, `K₄ = 1/3` and `K̃₅ = -1` for all temperatures. -/
theorem C108_massless (T : ℝ) (hT : 0 < T) :
    Spec.K 1 T 0 1 = 1 ∧ Spec.K 1 T 0 4 = 1 / 3 ∧ Spec.K 1 T 0 5 = -1 := by
  have hn := C108_norm T hT
  have hneg := norm1_neg hT
  have hJ := integral_sq_d hT
  refine ⟨?_, ?_, ?_⟩
  · rw [Spec.K, if_neg (by decide), Spec.angle, hn]
    have e : ∀ p : Fin 3 → ℝ, Spec.X 1 T 0 1 p = p 2 ^ 2 * (-(Spec.dd 1 T (radius p) / radius p)) := fun p => by
      simp only [Spec.X, energy_zero]; ring
    simp only [e]
    have e4 : ∀ r ∈ Set.Ioi (0 : ℝ), r ^ 4 * (-(Spec.dd 1 T r / r)) = -1 * (r ^ 3 * Spec.dd 1 T r) := fun r hr => by
      have : r ≠ 0 := (show (0 : ℝ) < r from hr).ne'
      field_simp
    rw [integral_z (fun r => -(Spec.dd 1 T r / r)) (((measurable_dd T).div measurable_id).neg)
      (IntegrableOn.congr_fun ((integrable_pow_dd 3 hT).const_mul (-1)) (fun r hr => (e4 r hr).symm) measurableSet_Ioi),
      setIntegral_congr_fun measurableSet_Ioi e4, integral_const_mul, integral_parts hT, hJ, div_eq_one_iff_eq hneg.ne,
      norm1]
    ring
  · rw [Spec.K, if_neg (by decide), Spec.angle, hn]
    have e : ∀ p : Fin 3 → ℝ, Spec.X 1 T 0 4 p = p 2 ^ 2 * (Spec.d 1 T (radius p) / radius p ^ 2) := fun p => by
      simp only [Spec.X, energy_zero]; ring
    simp only [e]
    have e4 : ∀ r ∈ Set.Ioi (0 : ℝ), r ^ 4 * (Spec.d 1 T r / r ^ 2) = r ^ 2 * Spec.d 1 T r := fun r hr => by
      have : r ≠ 0 := (show (0 : ℝ) < r from hr).ne'
      field_simp
    rw [integral_z (fun r => Spec.d 1 T r / r ^ 2) ((measurable_d T).div (measurable_id.pow_const 2))
      ((integrable_pow_d 2 hT).congr_fun (fun r hr => (e4 r hr).symm) measurableSet_Ioi),
      setIntegral_congr_fun measurableSet_Ioi e4, hJ, div_eq_iff hneg.ne, norm1]
    ring
  · rw [Spec.K, if_pos (by decide), Spec.square]
    have e : ∀ p : Fin 3 → ℝ, Spec.X 1 T 0 5 p = p 2 ^ 2 * (Spec.d 1 T (radius p) / radius p) := fun p => by
      simp only [Spec.X, energy_zero]; ring
    simp only [e, energy_zero]
    have e4 : ∀ r ∈ Set.Ioi (0 : ℝ), r ^ 4 * (Spec.d 1 T r / r) = r ^ 3 * Spec.d 1 T r := fun r hr => by
      have : r ≠ 0 := (show (0 : ℝ) < r from hr).ne'
      field_simp
    rw [integral_z (fun r => Spec.d 1 T r / r) ((measurable_d T).div measurable_id)
      ((integrable_pow_d 3 hT).congr_fun (fun r hr => (e4 r hr).symm) measurableSet_Ioi),
      setIntegral_congr_fun measurableSet_Ioi e4, integral_parts_f hT, integral_radius]
    have hpos : 0 < ∫ r in Set.Ioi (0 : ℝ), r ^ 2 * Spec.distribution 1 T r := by
      refine integral_Ioi_pos (fun r hr => ?_) (integrable_pow_f 2 hT)
      rw [Spec.distribution]
      positivity
    have := pi_pos
    rw [div_eq_iff (by positivity)]
    ring

end Verif.Kfactors
