import Verif.Via.RatesExpand
import Mathlib.Analysis.SpecialFunctions.ExpDeriv
import Mathlib.Analysis.Complex.ExponentialBounds

/-!
# C96 to C98: relaxation rates, the CP-violating source and thermal masses
-/

namespace Verif.Via

open Outcome Spec

/-! ### Relaxation rates -/

theorem root_pos {k msq : ℝ} (h : 0 < msq) : 0 < √(k ^ 2 + msq) := Real.sqrt_pos.2 (by positivity)

theorem root_sq {k msq : ℝ} (h : 0 < msq) : √(k ^ 2 + msq) ^ 2 = k ^ 2 + msq := Real.sq_sqrt (by positivity)

/-- The factor in the integrand of the relaxation rate is the published one to first order in the width and in the
difference of the energies. -/
theorem C96_expansion (k h msq dmsq : ℝ) (hm : 0 < msq) :
    ∃ a b c d : ℝ, IsExpansion (relaxation k h √(k ^ 2 + msq)) (fun g => a / g + b * g) (fun g => c / g + d * g) ∧
      ∀ g, 0 < g → gamBracket g msq dmsq k * h =
        a / g + b * g + dmsq / (2 * √(k ^ 2 + msq)) * (c / g + d * g) := by
  have hw := root_pos (k := k) hm
  unfold gamBracket
  generalize √(k ^ 2 + msq) = w at hw
  refine ⟨h * (k ^ 2 - k ^ 4 / w ^ 2), h * (k ^ 4 / w ^ 4), h * (k ^ 4 / w ^ 3), h * (-(2 * k ^ 4 / w ^ 5)), ?_, ?_⟩
  · have := relaxation_expansion k h w hw
    have e1 : (fun g => h * (k ^ 2 / g - k ^ 4 / (w ^ 2 * g) + k ^ 4 * g / w ^ 4)) =
        fun g => h * (k ^ 2 - k ^ 4 / w ^ 2) / g + h * (k ^ 4 / w ^ 4) * g := by
      funext g
      rw [← div_div]; ring
    have e2 : (fun g => h * (k ^ 4 / (w ^ 3 * g) - 2 * k ^ 4 * g / w ^ 5)) =
        fun g => h * (k ^ 4 / w ^ 3) / g + h * (-(2 * k ^ 4 / w ^ 5)) * g := by
      funext g
      rw [← div_div]; ring
    rwa [e1, e2] at this
  · intro g hg
    simp only
    field_simp
    ring

/-- The value of the integrand: the factor times the derivative of the Fermi distribution and the constant factors,
where numbers below 10⁻²⁰ are replaced by zero. -/
theorem C96_integrand (huge : ℝ) (lepton : Bool) (temp m msq dmsq k old : ℝ) (hm : 1e-4 < |msq|)
    (hexp : Real.exp (√(k ^ 2 + msq) / temp) ≤ huge) :
    ∃ h i : ℝ, |h - Real.exp (√(k ^ 2 + msq) / temp) / (1 + Real.exp (√(k ^ 2 + msq) / temp)) ^ 2| < 1e-20 ∧
      |i - gamBracket (if lepton then 0.002 * temp else 0.16 * temp) msq dmsq k * h| < 1e-20 ∧
      (dGam huge lepton temp m msq dmsq k old =
          ok (6 / temp ^ 2 * (3 * (2 * m ^ 2) / (2 * Real.pi ^ 2 * temp) * i)) ∨
        |i| = 1e-20 ∧ dGam huge lepton temp m msq dmsq k old = ok old) := by
  have cut_near : ∀ x, |cut x - x| < 1e-20 := by
    intro x
    unfold cut smallcut
    split_ifs with h
    · rw [zero_sub, abs_neg]; exact h
    · rw [sub_self, abs_zero]; norm_num
  obtain ⟨e, he⟩ : ∃ e, e = Real.exp (√(k ^ 2 + msq) / temp) := ⟨_, rfl⟩
  have he' : Real.exp (√(k ^ 2 + msq) * (1 / temp)) = e := by rw [he, mul_one_div]
  rw [← he] at hexp ⊢
  have h1 : ¬ |msq| < threshold := by unfold threshold; exact not_lt.2 hm.le
  have h2 : threshold < |msq| := hm
  obtain ⟨b, hb⟩ : ∃ b, b = gamBracket (width lepton temp) msq dmsq k := ⟨_, rfl⟩
  have hb' : gamBracket (if lepton = true then 0.002 * temp else 0.16 * temp) msq dmsq k = b := hb.symm
  have hd : dGam huge lepton temp m msq dmsq k old =
      if smallcut < |b * cut (e / (1 + e) ^ 2)| then
        ok (6 / temp ^ 2 * (3 * (2 * m * m) * (b * cut (e / (1 + e) ^ 2))) / (2 * Real.pi * Real.pi * temp))
      else if |b * cut (e / (1 + e) ^ 2)| < smallcut then ok 0 else ok old := by
    unfold dGam hf
    simp only [h1, if_false, h2, if_true, he', not_lt.2 hexp, ← hb]
    rfl
  rw [hb']
  by_cases h3 : smallcut < |b * cut (e / (1 + e) ^ 2)|
  · refine ⟨cut (e / (1 + e) ^ 2), b * cut (e / (1 + e) ^ 2), cut_near _, by rw [sub_self, abs_zero]; norm_num,
      Or.inl ?_⟩
    rw [hd, if_pos h3]
    congr 1
    ring
  · by_cases h4 : |b * cut (e / (1 + e) ^ 2)| < smallcut
    · refine ⟨cut (e / (1 + e) ^ 2), 0, cut_near _, by rw [zero_sub, abs_neg]; exact h4, Or.inl ?_⟩
      rw [hd, if_neg h3, if_pos h4]
      simp
    · refine ⟨cut (e / (1 + e) ^ 2), b * cut (e / (1 + e) ^ 2), cut_near _, by rw [sub_self, abs_zero]; norm_num,
        Or.inr ⟨?_, ?_⟩⟩
      · exact le_antisymm (not_lt.1 h3) (not_lt.1 h4)
      · rw [hd, if_neg h3, if_neg h4]

/-- The integrand throws for a thermal mass below the threshold and where the exponential is infinite, and only
then. -/
theorem C96_throws (huge : ℝ) (lepton : Bool) (temp m msq dmsq k old : ℝ) :
    dGam huge lepton temp m msq dmsq k old = err .runtime ↔
      |msq| < 1e-4 ∨ (1e-4 < |msq| ∧ huge < Real.exp (√(k ^ 2 + msq) / temp)) := by
  have he' : Real.exp (√(k ^ 2 + msq) * (1 / temp)) = Real.exp (√(k ^ 2 + msq) / temp) := by rw [mul_one_div]
  unfold dGam hf threshold
  simp only [he']
  by_cases h1 : |msq| < 1e-4
  · simp [h1]
  · by_cases h2 : (1e-4 : ℝ) < |msq|
    · by_cases h3 : huge < Real.exp (√(k ^ 2 + msq) / temp)
      · simp only [h1, if_false, h2, if_true, h3]
        simp
      · simp only [h1, if_false, h2, if_true, h3]
        simp only [false_or, and_false, iff_false]
        simp only [Bind.bind, Outcome.bind, Pure.pure]
        split_ifs <;> simp
    · simp only [h1, if_false, h2]
      simp only [false_or, false_and, iff_false]
      simp only [Bind.bind, Outcome.bind]
      split_ifs <;> simp

/-- The factor in the integrand is not negative. -/
theorem bracket_nonneg {g msq dmsq k : ℝ} (hg : 0 < g) (hm : 0 < msq) (hd : -(2 * msq) ≤ dmsq)
    (hg2 : 2 * g ^ 2 ≤ msq) : 0 ≤ gamBracket g msq dmsq k := by
  have hw := root_pos (k := k) hm
  have hw2 := root_sq (k := k) hm
  unfold gamBracket
  generalize √(k ^ 2 + msq) = w at hw hw2
  have hmw : msq = w ^ 2 - k ^ 2 := by linarith
  have key : k ^ 2 / g - k ^ 4 / (w ^ 2 * g) + k ^ 4 * g / w ^ 4 + dmsq / (2 * w) * k ^ 4 / (w ^ 3 * g) -
      2 * (dmsq / (2 * w)) * k ^ 4 * g / w ^ 5 =
      k ^ 2 / (2 * g * w ^ 6) * (2 * msq * w ^ 4 + 2 * k ^ 2 * g ^ 2 * w ^ 2 + dmsq * k ^ 2 * (w ^ 2 - 2 * g ^ 2)) := by
    rw [hmw]
    field_simp
    ring
  simp only [key]
  refine mul_nonneg (by positivity) ?_
  have hgw : 2 * g ^ 2 ≤ w ^ 2 := by nlinarith [sq_nonneg k]
  have hkw : k ^ 2 ≤ w ^ 2 := by linarith
  have hkp : 0 ≤ k ^ 2 := sq_nonneg k
  have h1 : -(2 * msq) * (k ^ 2 * (w ^ 2 - 2 * g ^ 2)) ≤ dmsq * (k ^ 2 * (w ^ 2 - 2 * g ^ 2)) :=
    mul_le_mul_of_nonneg_right hd (mul_nonneg hkp (by linarith))
  have h2 : k ^ 2 * (w ^ 2 - 2 * g ^ 2) ≤ w ^ 2 * w ^ 2 := by nlinarith [sq_nonneg g]
  have h3 := mul_le_mul_of_nonneg_left h2 (by linarith : 0 ≤ 2 * msq)
  nlinarith [mul_nonneg hkp (mul_nonneg (sq_nonneg g) (sq_nonneg w))]

/-- With the thermal masses and widths of the program the integrand of the relaxation rate is never negative, for
quarks and for leptons. -/
theorem C96_nonneg (huge : ℝ) (lepton : Bool) (temp y m k old : ℝ) (hT : 0 < temp) (hold : 0 ≤ old) (r : ℝ)
    (hr : dGam huge lepton temp m (if lepton then thermalMassL y temp else thermalMassQ y temp).1
      (if lepton then thermalMassL y temp else thermalMassQ y temp).2 k old = ok r) : 0 ≤ r := by
  have hT2 : 0 < temp ^ 2 := by positivity
  have hy : 0 ≤ y ^ 2 * temp ^ 2 := by positivity
  have hb : 0 ≤ gamBracket (width lepton temp) (if lepton then thermalMassL y temp else thermalMassQ y temp).1
      (if lepton then thermalMassL y temp else thermalMassQ y temp).2 k := by
    cases lepton
    · simp only [width, thermalMassQ, gY, gS, gW, Bool.false_eq_true, if_false]
      refine bracket_nonneg (by positivity) (by positivity) (by nlinarith) (by nlinarith)
    · simp only [width, thermalMassL, gY, gW, if_true]
      refine bracket_nonneg (by positivity) (by positivity) (by nlinarith) (by nlinarith)
  revert hr hb
  generalize (if lepton then thermalMassL y temp else thermalMassQ y temp).1 = msq
  generalize (if lepton then thermalMassL y temp else thermalMassQ y temp).2 = dmsq
  intro hr hb
  by_cases hbad : dGam huge lepton temp m msq dmsq k old = err .runtime
  · rw [hbad] at hr; cases hr
  rw [C96_throws, not_or] at hbad
  rcases lt_or_eq_of_le (not_lt.1 hbad.1) with h1 | h1
  · have hle : Real.exp (√(k ^ 2 + msq) / temp) ≤ huge := not_lt.1 fun h => hbad.2 ⟨h1, h⟩
    have h2 : ¬ |msq| < threshold := not_lt.2 h1.le
    have h3 : threshold < |msq| := h1
    have he' : Real.exp (√(k ^ 2 + msq) * (1 / temp)) = Real.exp (√(k ^ 2 + msq) / temp) := by rw [mul_one_div]
    unfold dGam hf at hr
    simp only [h2, if_false, h3, if_true, he', not_lt.2 hle] at hr
    simp only [Bind.bind, Outcome.bind, Pure.pure] at hr
    have hc : 0 ≤ cut (Real.exp (√(k ^ 2 + msq) / temp) / (1 + Real.exp (√(k ^ 2 + msq) / temp)) ^ 2) := by
      unfold cut
      split_ifs
      · exact le_rfl
      · have := Real.exp_pos (√(k ^ 2 + msq) / temp)
        positivity
    generalize cut (Real.exp (√(k ^ 2 + msq) / temp) / (1 + Real.exp (√(k ^ 2 + msq) / temp)) ^ 2) = c at hr hc
    split_ifs at hr
    · cases hr
      have := mul_nonneg hb hc
      have hpi := Real.pi_pos
      have hm : 0 ≤ 2 * m * m := by nlinarith [mul_self_nonneg m]
      positivity
    · cases hr; exact le_rfl
    · cases hr; exact hold
  · have h2 : ¬ |msq| < threshold := not_lt.2 h1.le
    have h3 : ¬ threshold < |msq| := not_lt.2 h1.ge
    unfold dGam at hr
    simp only [h2, if_false, h3, Bind.bind, Outcome.bind] at hr
    split_ifs at hr
    · cases hr; simp
    · cases hr; exact le_rfl
    · cases hr; exact hold

/-- Below 14 GeV the relaxation rate ends with an exception: at the upper limit 10⁴ of the integral the exponential is
larger than all numbers. -/
theorem C96_low_temperature_fails (lepton : Bool) (temp m y old : ℝ) (hT : 1 / 10 ≤ temp) (hT' : temp ≤ 14) :
    dGam (18 * 10 ^ 307) lepton temp m (if lepton then thermalMassL y temp else thermalMassQ y temp).1
      (if lepton then thermalMassL y temp else thermalMassQ y temp).2 (10 ^ 4) old = err .runtime := by
  have hT0 : 0 < temp := by linarith
  have hT2 : 1 / 100 ≤ temp ^ 2 := by nlinarith
  have hy : 0 ≤ y ^ 2 * temp ^ 2 := by positivity
  have hm : (1e-4 : ℝ) < (if lepton then thermalMassL y temp else thermalMassQ y temp).1 := by
    cases lepton
    · simp only [thermalMassQ, gY, gS, Bool.false_eq_true, if_false]
      norm_num
      nlinarith
    · simp only [thermalMassL, gY, if_true]
      norm_num
      nlinarith
  rw [C96_throws]
  refine Or.inr ⟨lt_of_lt_of_le hm (le_abs_self _), ?_⟩
  revert hm
  generalize (if lepton then thermalMassL y temp else thermalMassQ y temp).1 = msq
  intro hm
  have hmsq : 0 < msq := lt_trans (by norm_num) hm
  have hw : (10 ^ 4 : ℝ) ≤ √((10 ^ 4) ^ 2 + msq) := Real.le_sqrt_of_sq_le (by linarith)
  have h714 : (714 : ℝ) ≤ √((10 ^ 4) ^ 2 + msq) / temp := by
    rw [le_div_iff₀ hT0]; nlinarith
  have h1 : Real.exp 714 = Real.exp 1 ^ 714 := by rw [← Real.exp_nat_mul]; norm_num
  have h2 : (2.718 : ℝ) < Real.exp 1 := lt_trans (by norm_num) Real.exp_one_gt_d9
  have h3 : (18 * 10 ^ 307 : ℝ) * 1000 ^ 714 < 2718 ^ 714 := by exact_mod_cast (by decide +kernel : 18 * 10 ^ 307 * 1000 ^ 714 < 2718 ^ 714)
  calc (18 * 10 ^ 307 : ℝ) < 2.718 ^ 714 := by
        rw [show (2.718 : ℝ) = 2718 / 1000 by norm_num, div_pow, lt_div_iff₀ (by positivity)]; exact h3
    _ ≤ Real.exp 1 ^ 714 := pow_le_pow_left₀ (by norm_num) h2.le _
    _ = Real.exp 714 := h1.symm
    _ ≤ _ := Real.exp_le_exp.2 h714

/-- The hypotheses of `C96_integrand` and `C96_nonneg` hold for a top quark at 100 GeV. -/
example : ∃ r, dGam (18 * 10 ^ 307) false 100 60 (thermalMassQ 1 100).1 (thermalMassQ 1 100).2 0 0 = ok r ∧ 0 ≤ r := by
  have hm : (1e-4 : ℝ) < |(thermalMassQ 1 100).1| := by
    simp only [thermalMassQ, gY, gS]
    norm_num [abs_of_pos]
  have hexp : Real.exp (√(0 ^ 2 + (thermalMassQ 1 100).1) / 100) ≤ 18 * 10 ^ 307 := by
    have h1 : √(0 ^ 2 + (thermalMassQ 1 100).1) / 100 ≤ 1 := by
      rw [div_le_one (by norm_num)]
      refine Real.sqrt_le_iff.2 ⟨by norm_num, ?_⟩
      simp only [thermalMassQ, gY, gS]
      norm_num
    calc _ ≤ Real.exp 1 := Real.exp_le_exp.2 h1
      _ ≤ 2.7182818286 := Real.exp_one_lt_d9.le
      _ ≤ 18 * 1 := by norm_num
      _ ≤ _ := mul_le_mul_of_nonneg_left (one_le_pow₀ (by norm_num)) (by norm_num)
  obtain ⟨h, i, _, _, h3⟩ := C96_integrand (18 * 10 ^ 307) false 100 60 (thermalMassQ 1 100).1 (thermalMassQ 1 100).2 0 0
    hm hexp
  rcases h3 with h3 | ⟨_, h3⟩
  · exact ⟨_, h3, C96_nonneg (18 * 10 ^ 307) false 100 1 60 0 0 (by norm_num) le_rfl _ h3⟩
  · exact ⟨_, h3, le_rfl⟩

end Verif.Via
