import Verif.Perc.Model
import Verif.Perc.Spec
import Mathlib.MeasureTheory.Integral.IntervalIntegral.FundThmCalculus
import Mathlib.MeasureTheory.Function.JacobianOneDim
import Mathlib.Analysis.Calculus.Deriv.Inv
import Mathlib.Analysis.Calculus.Deriv.Pow

/-!
# C110: the false vacuum fraction
-/

set_option linter.unusedVariables false

namespace Verif.Perc

open Verif Verif.Outcome MeasureTheory

/-- The distance light travels between two temperatures, for the Hubble rate `h T²`. -/
theorem inner_eq {h a b : ℝ} (hh : 0 < h) (ha : 0 < a) (hb : 0 < b) :
    inner (fun x => h * x ^ 2) a b = (1 / a - 1 / b) / h := by
  have hpos : ∀ x ∈ Set.uIcc a b, 0 < x := by
    intro x hx
    rcases Set.mem_uIcc.1 hx with h' | h' <;> linarith [h'.1]
  unfold inner innerIntegrand
  have hd : ∀ x ∈ Set.uIcc a b, HasDerivAt (fun x : ℝ => -(1 / h) * x⁻¹) (1 / (h * x ^ 2)) x := by
    intro x hx
    have hx0 := (hpos x hx).ne'
    refine HasDerivAt.congr_deriv ((hasDerivAt_inv hx0).const_mul (-(1 / h))) ?_
    field_simp
  rw [intervalIntegral.integral_eq_sub_of_hasDerivAt hd]
  · field_simp; ring
  · apply ContinuousOn.intervalIntegrable
    apply ContinuousOn.div continuousOn_const (by fun_prop)
    intro x hx
    have := hpos x hx
    positivity

/-- `∫ du / (c √u)` -/
theorem conformal_eq {c a b : ℝ} (hc : 0 < c) (ha : 0 < a) (hb : 0 < b) :
    ∫ u in a..b, 1 / (c * Real.sqrt u) = 2 / c * (Real.sqrt b - Real.sqrt a) := by
  have hpos : ∀ x ∈ Set.uIcc a b, 0 < x := by
    intro x hx
    rcases Set.mem_uIcc.1 hx with h' | h' <;> linarith [h'.1]
  have hd : ∀ x ∈ Set.uIcc a b, HasDerivAt (fun x : ℝ => 2 / c * Real.sqrt x) (1 / (c * Real.sqrt x)) x := by
    intro x hx
    have hx0 := hpos x hx
    have hs := Real.sqrt_pos.2 hx0
    refine HasDerivAt.congr_deriv ((Real.hasDerivAt_sqrt hx0.ne').const_mul (2 / c)) ?_
    field_simp
  rw [intervalIntegral.integral_eq_sub_of_hasDerivAt hd]
  · ring
  · apply ContinuousOn.intervalIntegrable
    apply ContinuousOn.div continuousOn_const
    · exact (continuous_const.mul Real.continuous_sqrt).continuousOn
    · intro x hx
      have := Real.sqrt_pos.2 (hpos x hx)
      positivity

theorem sqrt_timeAt {h x : ℝ} (hh : 0 < h) (hx : 0 < x) :
    Real.sqrt (Spec.timeAt h x) = 1 / (Real.sqrt (2 * h) * x) := by
  unfold Spec.timeAt
  rw [Real.sqrt_div zero_le_one, Real.sqrt_one, Real.sqrt_mul (by positivity), Real.sqrt_sq hx.le]

theorem temperatureAt_timeAt {h x : ℝ} (hh : 0 < h) (hx : 0 < x) :
    Spec.temperatureAt h (Spec.timeAt h x) = x := by
  unfold Spec.temperatureAt Spec.timeAt
  have : 2 * h * (1 / (2 * h * x ^ 2)) = (1 / x) ^ 2 := by field_simp
  rw [this, Real.sqrt_sq (by positivity)]
  field_simp

theorem timeAt_image {h a b : ℝ} (hh : 0 < h) (ha : 0 < a) (hab : a ≤ b) :
    Spec.timeAt h '' Set.Icc a b = Set.Icc (Spec.timeAt h b) (Spec.timeAt h a) := by
  ext s
  constructor
  · rintro ⟨x, ⟨h1, h2⟩, rfl⟩
    have hx : 0 < x := by linarith
    unfold Spec.timeAt
    constructor <;>
    · apply one_div_le_one_div_of_le (by positivity)
      gcongr
  · rintro ⟨h1, h2⟩
    have hb : 0 < b := by linarith
    have hs : 0 < s := lt_of_lt_of_le (by unfold Spec.timeAt; positivity) h1
    have hq : 0 < Real.sqrt (2 * h * s) := Real.sqrt_pos.2 (by positivity)
    unfold Spec.timeAt at h1 h2
    rw [div_le_iff₀ (by positivity)] at h1
    rw [le_div_iff₀ (by positivity)] at h2
    refine ⟨1 / Real.sqrt (2 * h * s), ⟨?_, ?_⟩, ?_⟩
    · rw [le_div_iff₀ hq, ← abs_of_pos (mul_pos ha hq), ← abs_one, ← sq_le_sq, mul_pow, Real.sq_sqrt (by positivity)]
      linarith
    · rw [div_le_iff₀ hq, ← abs_of_pos (mul_pos hb hq), ← abs_one, ← sq_le_sq, mul_pow, Real.sq_sqrt (by positivity)]
      linarith
    · unfold Spec.timeAt
      rw [div_pow, one_pow, Real.sq_sqrt (by positivity)]
      field_simp

/-- **C110** The false vacuum fraction is the probability that a point is still in the false vacuum, for an expanding
universe dominated by radiation in which bubbles have nucleated with the tunnelling rate since the critical temperature. -/
theorem C110_published (Γ : ℝ → ℝ) (h c v tc t : ℝ) (hh : 0 < h) (hc : 0 < c) (ht : 0 < t) (htc : t ≤ tc) :
    fraction Γ (fun x => h * x ^ 2) v tc t =
      Spec.falseVacuum (fun s => Γ (Spec.temperatureAt h s)) (fun s => c * Real.sqrt s) v
        (Spec.timeAt h tc) (Spec.timeAt h t) := by
  have htc0 : 0 < tc := by linarith
  have hle : Spec.timeAt h tc ≤ Spec.timeAt h t := by
    unfold Spec.timeAt
    apply one_div_le_one_div_of_le (by positivity); gcongr
  unfold fraction Bounce.falseVacFraction Spec.falseVacuum
  congr 1
  rw [neg_mul, neg_inj]
  rw [intervalIntegral.integral_of_le hle, ← integral_Icc_eq_integral_Ioc, ← timeAt_image hh ht htc]
  have hder : ∀ x ∈ Set.Icc t tc, HasDerivWithinAt (Spec.timeAt h) (-(1 / (h * x ^ 3))) (Set.Icc t tc) x := by
    intro x hx
    have hx0 : 0 < x := by linarith [hx.1]
    have h1 : HasDerivAt (fun x : ℝ => 1 / (2 * h) * (x ^ 2)⁻¹) (-(1 / (h * x ^ 3))) x := by
      have h2 := ((hasDerivAt_pow 2 x).fun_inv (by positivity)).const_mul (1 / (2 * h))
      refine HasDerivAt.congr_deriv h2 ?_
      field_simp
      norm_num
    have e : Spec.timeAt h = fun x : ℝ => 1 / (2 * h) * (x ^ 2)⁻¹ := by
      funext y; unfold Spec.timeAt; rw [one_div, mul_inv, one_div]
    rw [e]
    exact h1.hasDerivWithinAt
  have hinj : Set.InjOn (Spec.timeAt h) (Set.Icc t tc) := by
    intro x hx y hy hxy
    have hx0 : 0 < x := by linarith [hx.1]
    have hy0 : 0 < y := by linarith [hy.1]
    have := congrArg (Spec.temperatureAt h) hxy
    rwa [temperatureAt_timeAt hh hx0, temperatureAt_timeAt hh hy0] at this
  rw [integral_image_eq_integral_abs_deriv_smul measurableSet_Icc hder hinj]
  unfold outer
  rw [intervalIntegral.integral_of_le htc, ← integral_Icc_eq_integral_Ioc, ← integral_const_mul]
  apply setIntegral_congr_fun measurableSet_Icc
  intro x hx
  have hx0 : 0 < x := by linarith [hx.1]
  have hp : ∀ y : ℝ, 0 < y → 0 < Spec.timeAt h y := by
    intro y hy; unfold Spec.timeAt; positivity
  have hs : 0 < Real.sqrt (2 * h) := Real.sqrt_pos.2 (by positivity)
  have hs2 : Real.sqrt (2 * h) ^ 2 = 2 * h := Real.sq_sqrt (by positivity)
  dsimp only
  rw [temperatureAt_timeAt hh hx0, conformal_eq hc (hp x hx0) (hp t ht), sqrt_timeAt hh hx0, sqrt_timeAt hh ht]
  unfold outerIntegrand
  rw [inner_eq hh ht hx0, abs_neg, abs_of_pos (by positivity), smul_eq_mul]
  have hh2 : h = Real.sqrt (2 * h) ^ 2 / 2 := by rw [hs2]; ring
  generalize Real.sqrt (2 * h) = r at hs hh2
  subst hh2
  field_simp

/-- The weight of a bubble nucleated at the temperature `x` for the fraction at the temperature `s`. -/
noncomputable def kern (h s x : ℝ) : ℝ := ((1 / s - 1 / x) / h) ^ 3 / (x ^ 4 * (h * x ^ 2))

theorem outer_eq (Γ : ℝ → ℝ) {h tc s : ℝ} (hh : 0 < h) (hs : 0 < s) (hst : s ≤ tc) :
    outer Γ (fun x => h * x ^ 2) tc s = ∫ x in Set.Icc s tc, Γ x * kern h s x := by
  unfold outer
  rw [intervalIntegral.integral_of_le hst, ← integral_Icc_eq_integral_Ioc]
  apply setIntegral_congr_fun measurableSet_Icc
  intro x hx
  have hx0 : 0 < x := by linarith [hx.1]
  dsimp only
  unfold outerIntegrand kern
  rw [inner_eq hh hs hx0]
  ring

theorem kern_nonneg {h s x : ℝ} (hh : 0 < h) (hs : 0 < s) (hx : s ≤ x) : 0 ≤ kern h s x := by
  have hx0 : 0 < x := by linarith
  have : 0 ≤ 1 / s - 1 / x := sub_nonneg.2 (one_div_le_one_div_of_le hs hx)
  unfold kern
  positivity

theorem kern_lt {h s s' x : ℝ} (hh : 0 < h) (hs : 0 < s) (hss : s < s') (hx : s' ≤ x) :
    kern h s' x < kern h s x := by
  have hx0 : 0 < x := by linarith
  have h1 : 0 ≤ 1 / s' - 1 / x := sub_nonneg.2 (one_div_le_one_div_of_le (by linarith) hx)
  have h2 : 1 / s' < 1 / s := one_div_lt_one_div_of_lt hs hss
  unfold kern
  gcongr

theorem kern_pos {h s x : ℝ} (hh : 0 < h) (hs : 0 < s) (hx : s < x) : 0 < kern h s x := by
  have hx0 : 0 < x := by linarith
  have : 0 < 1 / s - 1 / x := sub_pos.2 (one_div_lt_one_div_of_lt hs hx)
  unfold kern
  positivity

theorem kern_integrable {Γ : ℝ → ℝ} {h a b s : ℝ} (hh : 0 < h) (hs : 0 < s) (ha : 0 < a)
    (hΓ : IntegrableOn Γ (Set.Icc a b)) : IntegrableOn (fun x => Γ x * kern h s x) (Set.Icc a b) := by
  apply IntegrableOn.mul_continuousOn hΓ _ isCompact_Icc
  unfold kern
  apply ContinuousOn.div
  · apply ContinuousOn.pow
    apply ContinuousOn.div_const
    apply continuousOn_const.sub
    exact continuousOn_const.div continuousOn_id (fun x hx => by have := hx.1; have : 0 < x := by linarith
                                                                 exact this.ne')
  · fun_prop
  · intro x hx
    have : 0 < x := by linarith [hx.1]
    positivity

/-- **C110** At the critical temperature everything is in the false vacuum, and below it the fraction lies between 0
and 1, for every rate that is not negative. -/
theorem C110_bounds (Γ : ℝ → ℝ) (h v tc t : ℝ) (hh : 0 < h) (hv : 0 ≤ v) (ht : 0 < t) (htc : t ≤ tc)
    (hΓ : ∀ x, 0 ≤ Γ x) :
    0 < fraction Γ (fun x => h * x ^ 2) v tc t ∧ fraction Γ (fun x => h * x ^ 2) v tc t ≤ 1 ∧
      fraction Γ (fun x => h * x ^ 2) v tc tc = 1 := by
  unfold fraction Bounce.falseVacFraction
  refine ⟨Real.exp_pos _, ?_, ?_⟩
  · rw [Real.exp_le_one_iff, neg_mul, neg_nonpos]
    apply mul_nonneg (by positivity)
    rw [outer_eq Γ hh ht htc]
    exact setIntegral_nonneg measurableSet_Icc fun x hx => mul_nonneg (hΓ x) (kern_nonneg hh ht hx.1)
  · unfold outer
    rw [intervalIntegral.integral_same]
    simp

/-- The exponent grows strictly while the temperature falls, if bubbles nucleate at all above the lower temperature. -/
theorem outer_strictAnti (Γ : ℝ → ℝ) {h tc t₁ t₂ a b : ℝ} (hh : 0 < h) (ht : 0 < t₁) (h12 : t₁ < t₂) (h2 : t₂ ≤ tc)
    (hΓ : ∀ x, 0 ≤ Γ x) (hi : IntegrableOn Γ (Set.Icc t₁ tc)) (ha : t₁ ≤ a) (hab : a < b) (hb : b ≤ tc)
    (hpos : ∀ x ∈ Set.Ioo a b, 0 < Γ x) :
    outer Γ (fun x => h * x ^ 2) tc t₂ < outer Γ (fun x => h * x ^ 2) tc t₁ := by
  rw [outer_eq Γ hh ht (by linarith), outer_eq Γ hh (by linarith) h2]
  have hsub : Set.Icc t₂ tc ⊆ Set.Icc t₁ tc := Set.Icc_subset_Icc_left h12.le
  have i1 := kern_integrable (s := t₁) hh ht ht hi
  have i2 : IntegrableOn (Set.indicator (Set.Icc t₂ tc) fun x => Γ x * kern h t₂ x) (Set.Icc t₁ tc) :=
    (kern_integrable (s := t₂) hh (by linarith) ht hi).indicator measurableSet_Icc
  have e : ∫ x in Set.Icc t₂ tc, Γ x * kern h t₂ x =
      ∫ x in Set.Icc t₁ tc, Set.indicator (Set.Icc t₂ tc) (fun x => Γ x * kern h t₂ x) x := by
    rw [setIntegral_indicator measurableSet_Icc, Set.inter_eq_right.2 hsub]
  rw [e, ← sub_pos, ← integral_sub i1 i2]
  have hnn : ∀ x ∈ Set.Icc t₁ tc,
      Set.indicator (Set.Icc t₂ tc) (fun x => Γ x * kern h t₂ x) x ≤ Γ x * kern h t₁ x := by
    intro x hx
    by_cases hx2 : x ∈ Set.Icc t₂ tc
    · rw [Set.indicator_of_mem hx2]
      exact mul_le_mul_of_nonneg_left (kern_lt hh ht h12 hx2.1).le (hΓ x)
    · rw [Set.indicator_of_notMem hx2]
      exact mul_nonneg (hΓ x) (kern_nonneg hh ht hx.1)
  rw [setIntegral_pos_iff_support_of_nonneg_ae]
  · apply lt_of_lt_of_le _ (measure_mono (s := Set.Ioo a b) _)
    · rw [Real.volume_Ioo]; simpa using hab
    · intro x hx
      have hx1 : x ∈ Set.Icc t₁ tc := ⟨by linarith [hx.1], by linarith [hx.2]⟩
      refine ⟨?_, hx1⟩
      rw [Function.mem_support]
      apply ne_of_gt
      rw [sub_pos]
      have hp := hpos x hx
      by_cases hx2 : x ∈ Set.Icc t₂ tc
      · rw [Set.indicator_of_mem hx2]
        exact mul_lt_mul_of_pos_left (kern_lt hh ht h12 hx2.1) hp
      · rw [Set.indicator_of_notMem hx2]
        exact mul_pos hp (kern_pos hh ht (by linarith [hx.1]))
  · filter_upwards [ae_restrict_mem measurableSet_Icc] with x hx
    simpa using hnn x hx
  · exact i1.sub i2

/-- **C110** The fraction falls strictly while the temperature falls, if the wall moves and bubbles nucleate somewhere
above the lower temperature. -/
theorem C110_monotone (Γ : ℝ → ℝ) (h v tc t₁ t₂ a b : ℝ) (hh : 0 < h) (hv : 0 < v) (ht : 0 < t₁) (h12 : t₁ < t₂)
    (h2 : t₂ ≤ tc) (hΓ : ∀ x, 0 ≤ Γ x) (hi : IntegrableOn Γ (Set.Icc t₁ tc)) (ha : t₁ ≤ a) (hab : a < b)
    (hb : b ≤ tc) (hpos : ∀ x ∈ Set.Ioo a b, 0 < Γ x) :
    fraction Γ (fun x => h * x ^ 2) v tc t₁ < fraction Γ (fun x => h * x ^ 2) v tc t₂ := by
  unfold fraction Bounce.falseVacFraction
  rw [Real.exp_lt_exp, neg_mul, neg_mul, neg_lt_neg_iff]
  exact mul_lt_mul_of_pos_left (outer_strictAnti Γ hh ht h12 h2 hΓ hi ha hab hb hpos) (by positivity)

end Verif.Perc
