import Verif.Via.Rates
import Verif.Via.RatesSpec
import Mathlib.Analysis.Real.Pi.Bounds
import Mathlib.Tactic.Linarith
import Mathlib.Tactic.Ring
import Mathlib.Tactic.FieldSimp
import Mathlib.Tactic.NormNum

/-!
# C98: thermal masses and Yukawa couplings of the VEV insertion approximation

Hypercharges (`Q = T₃ + Y`): quark doublet 1/6, right-handed top 2/3, right-handed bottom -1/3, lepton doublet -1/2,
right-handed tau -1.
-/

set_option linter.unusedSimpArgs false

namespace Verif.Via

open Outcome Spec

/-- The thermal masses of the top: the right-handed one and the difference of right-handed and left-handed. -/
theorem C98_top (y temp : ℝ) :
    thermalMassQ y temp =
      (right gY gW gS (2 / 3) true y * temp ^ 2,
        (right gY gW gS (2 / 3) true y - left gY gW gS (1 / 6) true y) * temp ^ 2) := by
  unfold thermalMassQ right left thermal
  simp only [if_true, if_false, Bool.false_eq_true]
  ext <;> simp only <;> ring

/-- The masses of the bottom are those of a fermion with the hypercharge of the top: both are too large by g'² T²/24,
for all Yukawa couplings. -/
theorem C98_bottom_fails (y : Yukawas) (temp : ℝ) (h : temp ≠ 0) :
    (thermalMasses y temp).bottom.1 = right gY gW gS (-1 / 3) true y.bottom * temp ^ 2 + gY ^ 2 / 24 * temp ^ 2 ∧
    (thermalMasses y temp).bottom.2 =
      (right gY gW gS (-1 / 3) true y.bottom - left gY gW gS (1 / 6) true y.bottom) * temp ^ 2 +
        gY ^ 2 / 24 * temp ^ 2 ∧
    (thermalMasses y temp).bottom.1 ≠ right gY gW gS (-1 / 3) true y.bottom * temp ^ 2 ∧
    (thermalMasses y temp).bottom.2 ≠
      (right gY gW gS (-1 / 3) true y.bottom - left gY gW gS (1 / 6) true y.bottom) * temp ^ 2 := by
  have e1 : (thermalMasses y temp).bottom.1 =
      right gY gW gS (-1 / 3) true y.bottom * temp ^ 2 + gY ^ 2 / 24 * temp ^ 2 := by
    unfold thermalMasses thermalMassQ right thermal
    simp only [if_true, if_false, Bool.false_eq_true]
    ring
  have e2 : (thermalMasses y temp).bottom.2 =
      (right gY gW gS (-1 / 3) true y.bottom - left gY gW gS (1 / 6) true y.bottom) * temp ^ 2 +
        gY ^ 2 / 24 * temp ^ 2 := by
    unfold thermalMasses thermalMassQ right left thermal
    simp only [if_true, if_false, Bool.false_eq_true]
    ring
  have hpos : 0 < gY ^ 2 / 24 * temp ^ 2 := by
    have : 0 < temp ^ 2 := by positivity
    have : 0 < gY := by unfold gY; norm_num
    positivity
  refine ⟨e1, e2, ?_, ?_⟩
  · rw [e1]; linarith
  · rw [e2]; linarith

/-- The thermal mass of the right-handed tau. -/
theorem C98_tau_partial (y : Yukawas) (temp : ℝ) :
    (thermalMasses y temp).tau.1 = right gY gW gS (-1) false y.tau * temp ^ 2 := by
  unfold thermalMasses thermalMassL right thermal
  simp only [if_true, if_false, Bool.false_eq_true]
  ring

/-- The difference of the thermal masses of the tau has 3 g'²/4 where 3 g'²/32 belongs. -/
theorem C98_tau_fails (y : Yukawas) (temp : ℝ) (h : temp ≠ 0) :
    (thermalMasses y temp).tau.2 =
      (right gY gW gS (-1) false y.tau - left gY gW gS (-1 / 2) false y.tau) * temp ^ 2 +
        21 / 32 * gY ^ 2 * temp ^ 2 ∧
    (thermalMasses y temp).tau.2 ≠
      (right gY gW gS (-1) false y.tau - left gY gW gS (-1 / 2) false y.tau) * temp ^ 2 := by
  have e : (thermalMasses y temp).tau.2 =
      (right gY gW gS (-1) false y.tau - left gY gW gS (-1 / 2) false y.tau) * temp ^ 2 +
        21 / 32 * gY ^ 2 * temp ^ 2 := by
    unfold thermalMasses thermalMassL right left thermal
    simp only [if_true, if_false, Bool.false_eq_true]
    ring
  have hpos : 0 < 21 / 32 * gY ^ 2 * temp ^ 2 := by
    have : 0 < temp ^ 2 := by positivity
    have : 0 < gY := by unfold gY; norm_num
    positivity
  exact ⟨e, by rw [e]; linarith⟩

/-- The sign of this difference is wrong for every tau that is lighter than a fermion with Yukawa coupling 0.2: the
left-handed tau is heavier in the plasma, in the program the right-handed one is. -/
theorem C98_tau_sign_fails (y : Yukawas) (temp : ℝ) (h : temp ≠ 0) (hy : |y.tau| ≤ 0.2) :
    right gY gW gS (-1) false y.tau < left gY gW gS (-1 / 2) false y.tau ∧ 0 < (thermalMasses y temp).tau.2 := by
  have h2 : y.tau ^ 2 ≤ 0.04 := by
    have := sq_le_sq' (abs_le.1 hy).1 (abs_le.1 hy).2
    norm_num at this ⊢; linarith
  have h0 : 0 ≤ y.tau ^ 2 := sq_nonneg _
  constructor
  · unfold right left thermal gY gW gS
    simp only [if_true, if_false, Bool.false_eq_true]
    norm_num at *
    linarith
  · unfold thermalMasses thermalMassL gY gW
    simp only
    have : 0 < temp ^ 2 := by positivity
    apply mul_pos _ this
    norm_num
    linarith

/-- The Yukawa couplings of the types 1 and 2: the masses are `y v_i/√2` with the vacuum expectation value of the
doublet that the fermion couples to, `v_2 = v sin β` for the top, and `v_2` (type 1) or `v_1 = v cos β` (type 2) for
bottom and tau. -/
theorem C98_yukawa (v β mTop mBottom mTau : ℝ) (hv : 0 < v) (h0 : 0 < β) (h1 : β < Real.pi / 2) :
    (∃ y, yukawas v (Real.tan β) mTop mBottom mTau 1 = ok y ∧ y.top * (v * Real.sin β) / √2 = mTop ∧
      y.bottom * (v * Real.sin β) / √2 = mBottom ∧ y.tau * (v * Real.sin β) / √2 = mTau) ∧
    (∃ y, yukawas v (Real.tan β) mTop mBottom mTau 2 = ok y ∧ y.top * (v * Real.sin β) / √2 = mTop ∧
      y.bottom * (v * Real.cos β) / √2 = mBottom ∧ y.tau * (v * Real.cos β) / √2 = mTau) := by
  have ha : Real.arctan (Real.tan β) = β := Real.arctan_tan (by linarith) h1
  have hs : Real.sin β ≠ 0 := (Real.sin_pos_of_pos_of_lt_pi h0 (by linarith [Real.pi_pos])).ne'
  have hc : Real.cos β ≠ 0 := (Real.cos_pos_of_mem_Ioo ⟨by linarith, h1⟩).ne'
  have h2 : √(2 : ℝ) ≠ 0 := (Real.sqrt_pos.2 two_pos).ne'
  have key : ∀ m x : ℝ, x ≠ 0 → √2 * m / (v * x) * (v * x) / √2 = m := by
    intro m x hx
    rw [div_mul_cancel₀ _ (mul_ne_zero hv.ne' hx), mul_div_cancel_left₀ _ h2]
  constructor
  · refine ⟨⟨√2 * mTop / (v * Real.sin β), √2 * mBottom / (v * Real.sin β), √2 * mTau / (v * Real.sin β)⟩, ?_,
      key _ _ hs, key _ _ hs, key _ _ hs⟩
    unfold yukawas; simp [ha]
  · refine ⟨⟨√2 * mTop / (v * Real.sin β), √2 * mBottom / (v * Real.cos β), √2 * mTau / (v * Real.cos β)⟩, ?_,
      key _ _ hs, key _ _ hc, key _ _ hc⟩
    unfold yukawas; simp [ha]

/-- The lepton-specific and the flipped model, types 3 and 4, end in an exception for all parameters. -/
theorem C98_types_fails (v tanbeta mTop mBottom mTau : ℝ) (t : Int) (h : t ≠ 1 ∧ t ≠ 2) :
    yukawas v tanbeta mTop mBottom mTau t = err .runtime := by
  unfold yukawas
  simp [h.1, h.2]

/-- A value of β that meets the hypotheses of `C98_yukawa`. -/
example : (0 : ℝ) < 1 ∧ (1 : ℝ) < Real.pi / 2 := ⟨one_pos, by linarith [Real.pi_gt_three]⟩

end Verif.Via
