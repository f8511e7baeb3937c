import Mathlib.NumberTheory.ZetaValues
import Mathlib.Analysis.SpecialFunctions.Gamma.Basic
import Mathlib.MeasureTheory.Integral.DominatedConvergence
import Mathlib.Analysis.SpecificLimits.Normed
import Mathlib.Tactic.FieldSimp
import Mathlib.Tactic.Ring

/-!
# The integral of the derivative of the Fermi distribution
-/

namespace Verif.Kfactors

open Real MeasureTheory

theorem hasSum_alternating : HasSum (fun n : ℕ => (-1 : ℝ) ^ n / (n : ℝ) ^ 2) (-(π ^ 2 / 12)) := by
  have h1 := hasSum_zeta_two
  have h2 : HasSum (fun n : ℕ => if Even n then 2 * (1 / (n : ℝ) ^ 2) else 0) (π ^ 2 / 12) := by
    have hi : Function.Injective fun n : ℕ => 2 * n := fun a b h => by simpa using h
    refine (hi.hasSum_iff fun n hn => ?_).1 ?_
    · rw [if_neg]
      rintro ⟨k, rfl⟩
      exact hn ⟨k, by simp; ring⟩
    · have e : ((fun n : ℕ => if Even n then 2 * (1 / (n : ℝ) ^ 2) else 0) ∘ fun n => 2 * n) =
          fun n : ℕ => 1 / 2 * (1 / (n : ℝ) ^ 2) := by
        funext n
        simp only [Function.comp, even_two, Even.mul_right, if_true]
        push_cast
        rw [mul_pow, one_div, one_div, mul_inv]
        ring
      rw [e, show π ^ 2 / 12 = 1 / 2 * (π ^ 2 / 6) by ring]
      exact h1.mul_left (1 / 2)
  have e : (fun n : ℕ => (-1 : ℝ) ^ n / (n : ℝ) ^ 2) =
      fun n : ℕ => (if Even n then 2 * (1 / (n : ℝ) ^ 2) else 0) - 1 / (n : ℝ) ^ 2 := by
    funext n
    by_cases h : Even n
    · rw [if_pos h, h.neg_one_pow]; ring
    · rw [if_neg h, (Nat.not_even_iff_odd.1 h).neg_one_pow]; ring
  rw [e, show -(π ^ 2 / 12) = π ^ 2 / 12 - π ^ 2 / 6 by ring]
  exact h2.sub h1

theorem integral_sq_exp {n : ℕ} (hn : 0 < n) :
    ∫ x in Set.Ioi (0 : ℝ), x ^ 2 * exp (-(n * x)) = 2 / (n : ℝ) ^ 3 := by
  have h := integral_rpow_mul_exp_neg_mul_Ioi (a := 3) (r := n) (by norm_num) (by exact_mod_cast hn)
  have hG : Gamma 3 = 2 := by
    have := Gamma_nat_eq_factorial 2
    rw [show ((2 : ℕ) : ℝ) + 1 = 3 by norm_num] at this
    rw [this]
    norm_num [Nat.factorial]
  rw [hG] at h
  rw [show (2 : ℝ) / (n : ℝ) ^ 3 = (1 / (n : ℝ)) ^ (3 : ℝ) * 2 by
    rw [show (3 : ℝ) = ((3 : ℕ) : ℝ) by norm_num, rpow_natCast]; ring, ← h]
  refine setIntegral_congr_fun measurableSet_Ioi fun x _ => ?_
  rw [show (3 : ℝ) - 1 = ((2 : ℕ) : ℝ) by norm_num, rpow_natCast]

theorem integrable_sq_exp {n : ℕ} (hn : 0 < n) :
    IntegrableOn (fun x : ℝ => x ^ 2 * exp (-(n * x))) (Set.Ioi 0) := by
  by_contra h
  have := integral_sq_exp hn
  rw [integral_undef h] at this
  have hn' : (0 : ℝ) < n := by exact_mod_cast hn
  have : (0 : ℝ) < 2 / (n : ℝ) ^ 3 := by positivity
  linarith

/-- The integral of `x² eˣ / (eˣ + 1)²`. -/
theorem integral_fermi : ∫ x in Set.Ioi (0 : ℝ), x ^ 2 * (exp x / (exp x + 1) ^ 2) = π ^ 2 / 6 := by
  let F : ℕ → ℝ → ℝ := fun n x => -(n * (-1) ^ n) * (x ^ 2 * exp (-(n * x)))
  have hint : ∀ n, Integrable (F n) (volume.restrict (Set.Ioi 0)) := fun n => by
    rcases Nat.eq_zero_or_pos n with rfl | hn
    · simp [F]
    · exact (integrable_sq_exp hn).const_mul _
  have hval : ∀ n, ∫ x in Set.Ioi (0 : ℝ), F n x = -2 * ((-1) ^ n / (n : ℝ) ^ 2) := fun n => by
    rcases Nat.eq_zero_or_pos n with rfl | hn
    · simp [F]
    · have hn' : (n : ℝ) ≠ 0 := by exact_mod_cast hn.ne'
      simp only [F]
      rw [integral_const_mul, integral_sq_exp hn]
      field_simp
  have hnorm : ∀ n, ∫ x in Set.Ioi (0 : ℝ), ‖F n x‖ = 2 * (1 / (n : ℝ) ^ 2) := fun n => by
    rcases Nat.eq_zero_or_pos n with rfl | hn
    · simp [F]
    · have hn' : (n : ℝ) ≠ 0 := by exact_mod_cast hn.ne'
      have : ∀ x : ℝ, ‖F n x‖ = n * (x ^ 2 * exp (-(n * x))) := fun x => by
        simp only [F]
        rw [norm_mul, norm_neg, norm_mul, norm_pow, norm_neg, norm_one, one_pow, mul_one,
          norm_of_nonneg (Nat.cast_nonneg n), norm_of_nonneg (by positivity)]
      simp only [this]
      rw [integral_const_mul, integral_sq_exp hn]
      field_simp
  have h := hasSum_integral_of_summable_integral_norm hint
    (by simp only [hnorm]; exact hasSum_zeta_two.summable.mul_left 2)
  simp only [hval] at h
  have h' := (hasSum_alternating.mul_left (-2)).unique h
  have hpt : ∀ x ∈ Set.Ioi (0 : ℝ), ∑' n, F n x = x ^ 2 * (exp x / (exp x + 1) ^ 2) := fun x hx => by
    have hx : (0 : ℝ) < x := hx
    have hlt : ‖-exp (-x)‖ < 1 := by
      rw [norm_neg, norm_of_nonneg (exp_pos _).le, exp_lt_one_iff]; linarith
    have hs := (hasSum_coe_mul_geometric_of_norm_lt_one hlt).mul_left (-x ^ 2)
    have e : (fun n : ℕ => -x ^ 2 * (n * (-exp (-x)) ^ n)) = fun n => F n x := by
      funext n
      simp only [F]
      rw [neg_pow, ← exp_nat_mul]
      rw [show (n : ℝ) * -x = -(n * x) by ring]
      ring
    rw [e] at hs
    rw [hs.tsum_eq, exp_neg]
    have := exp_pos x
    have h2 : 1 - -(exp x)⁻¹ = (exp x + 1) / exp x := by field_simp; ring
    rw [h2]
    field_simp
  rw [← setIntegral_congr_fun measurableSet_Ioi hpt, ← h']
  ring

theorem integrable_fermi : IntegrableOn (fun x : ℝ => x ^ 2 * (exp x / (exp x + 1) ^ 2)) (Set.Ioi 0) := by
  by_contra h
  have := integral_fermi
  rw [integral_undef h] at this
  have := pi_pos
  have : 0 < π ^ 2 / 6 := by positivity
  linarith

end Verif.Kfactors
