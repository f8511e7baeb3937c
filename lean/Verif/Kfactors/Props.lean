import Verif.Kfactors.Norms
import Mathlib.Tactic.FieldSimp
import Mathlib.Analysis.Real.Pi.Bounds

/-!
# The cut-off, the norm of `[ ]` and the interpolated functions
-/

set_option linter.unusedSimpArgs false

namespace Verif.Kfactors

open Outcome Real MeasureTheory Filter

/-! ### Values of the switch -/

/-- **Switch**: larger numbers than ten end the program, and others without function give zero. -/
theorem C108_switch (m2 T : ℝ) (i s : ℤ) : (functions m2 T i s = none ↔ 10 < i) ∧
    (i < 1 → functions m2 T i s = some 0) := by
  constructor
  · unfold functions
    by_cases h : i > 10
    · simp [h]
    · simp only [h, if_false]
      split <;> simp
  · intro h
    have hk : ∀ p : Fin 3 → ℝ, kernel (p 0) (p 1) (p 2) m2 i s T = 0 := fun p => by
      unfold kernel
      simp only
      repeat' rw [if_neg (by omega)]
    unfold functions integration
    simp only [hk, integral_zero, zero_mul, zero_div]
    rw [if_neg (by omega), if_neg (by omega)]

/-! ### The cut-off -/

theorem measurable_radius : Measurable radius := by unfold radius; fun_prop

theorem integral_sq_tail (u : ℝ) : ∫ x in Set.Ioi u, x ^ 2 * exp (-x) = (u ^ 2 + 2 * u + 2) * exp (-u) ∧
    IntegrableOn (fun x => x ^ 2 * exp (-x)) (Set.Ioi u) := by
  have hd : ∀ x : ℝ, HasDerivAt (fun x => -((x ^ 2 + 2 * x + 2) * exp (-x))) (x ^ 2 * exp (-x)) x := fun x => by
    have h1 := ((hasDerivAt_pow 2 x).fun_add ((hasDerivAt_id' x).const_mul 2)).add_const 2
    have h2 := (hasDerivAt_id' x).fun_neg.exp
    refine (h1.fun_mul h2).fun_neg.congr_deriv ?_
    push_cast
    ring
  have hlim : Tendsto (fun x : ℝ => -((x ^ 2 + 2 * x + 2) * exp (-x))) atTop (nhds 0) := by
    have h := (((tendsto_pow_exp 2 one_pos).add ((tendsto_pow_exp 1 one_pos).const_mul 2)).add
      ((tendsto_pow_exp 0 one_pos).const_mul 2)).neg
    simp only [mul_zero, add_zero, neg_zero] at h
    refine h.congr fun x => ?_
    rw [one_mul]
    ring
  have hi : IntegrableOn (fun x => x ^ 2 * exp (-x)) (Set.Ioi u) :=
    integrableOn_Ioi_deriv_of_nonneg' (fun x _ => hd x) (fun x _ => by positivity) hlim
  refine ⟨?_, hi⟩
  rw [integral_Ioi_of_hasDerivAt_of_tendsto' (fun x _ => hd x) hi hlim]
  ring

theorem integral_sq_tail_scaled {T L : ℝ} (hT : 0 < T) :
    ∫ r in Set.Ioi L, r ^ 2 * (1 / T * exp (-(1 / T * r))) =
      T ^ 2 * (((L / T) ^ 2 + 2 * (L / T) + 2) * exp (-(L / T))) := by
  have h := integral_comp_mul_left_Ioi (fun x => x ^ 2 * exp (-x)) L (b := 1 / T) (by positivity)
  rw [(integral_sq_tail _).1, smul_eq_mul, show 1 / T * L = L / T by ring] at h
  have e : ∀ r ∈ Set.Ioi L, r ^ 2 * (1 / T * exp (-(1 / T * r))) = T * ((1 / T * r) ^ 2 * exp (-(1 / T * r))) :=
    fun r _ => by field_simp
  rw [setIntegral_congr_fun measurableSet_Ioi e, integral_const_mul, h]
  field_simp

theorem energy_ge {m2 : ℝ} (hm : 0 ≤ m2) (p : Fin 3 → ℝ) : radius p ≤ Spec.energy m2 p := by
  rw [energy_radius]
  exact le_sqrt_of_sq_le (by linarith)

theorem radial_tail (g : ℝ → ℝ) {L : ℝ} (hL : 0 ≤ L) :
    ∫ p in {p : Fin 3 → ℝ | L < radius p}, g (radius p) = 4 * π * ∫ r in Set.Ioi L, r ^ 2 * g r := by
  have hms : MeasurableSet {p : Fin 3 → ℝ | L < radius p} := measurableSet_lt measurable_const measurable_radius
  rw [← integral_indicator hms]
  have e : ({p : Fin 3 → ℝ | L < radius p}.indicator fun p => g (radius p)) =
      fun p => (Set.Ioi L).indicator g (radius p) := by
    funext p
    simp only [Set.indicator, Set.mem_setOf_eq, Set.mem_Ioi]
  rw [e, integral_radius]
  congr 1
  have e2 : (fun r => r ^ 2 * (Set.Ioi L).indicator g r) = (Set.Ioi L).indicator fun r => r ^ 2 * g r := by
    funext r
    simp only [Set.indicator]
    split <;> simp
  rw [e2, setIntegral_indicator measurableSet_Ioi]
  congr 2
  exact Set.inter_eq_right.2 (Set.Ioi_subset_Ioi hL)

theorem X4_bound {m2 T : ℝ} (hm : 0 ≤ m2) (hT : 0 < T) (p : Fin 3 → ℝ) :
    |Spec.X 1 T m2 4 p| ≤ 1 / T * exp (-(1 / T * radius p)) := by
  simp only [Spec.X]
  rw [abs_mul, abs_of_nonneg (by positivity)]
  have hE := energy_ge hm p
  have h1 : p 2 ^ 2 / Spec.energy m2 p ^ 2 ≤ 1 := by
    refine div_le_one_of_le₀ ?_ (sq_nonneg _)
    have := radius_sq p
    have := pow_le_pow_left₀ (radius_nonneg p) hE 2
    nlinarith [sq_nonneg (p 0), sq_nonneg (p 1)]
  calc _ ≤ 1 * |Spec.d 1 T (Spec.energy m2 p)| := by gcongr
    _ = |Spec.d 1 T (Spec.energy m2 p)| := one_mul _
    _ ≤ 1 / T * exp (-(1 / T * Spec.energy m2 p)) := fermion_d_bound hT _
    _ ≤ _ := by gcongr

theorem measurable_energy (m2 : ℝ) : Measurable (Spec.energy m2) := by unfold Spec.energy; fun_prop

theorem integrable_X4 {m2 T : ℝ} (hm : 0 ≤ m2) (hT : 0 < T) : Integrable (Spec.X 1 T m2 4) := by
  have hX : Measurable (Spec.X 1 T m2 4) := by
    have h1 := measurable_energy m2
    have h2 := (measurable_d T).comp h1
    simp only [Function.comp_def] at h2
    unfold Spec.X
    fun_prop
  have hg : Integrable fun p : Fin 3 → ℝ => 1 / T * exp (-(1 / T * radius p)) := by
    refine (integrable_radius fun r => 1 / T * exp (-(1 / T * r))).2 ?_
    refine IntegrableOn.congr_fun ((integrable_pow_exp 2 (b := 1 / T) (by positivity)).const_mul (1 / T))
      (fun r _ => ?_) measurableSet_Ioi
    ring
  refine hg.mono hX.aestronglyMeasurable (ae_of_all _ fun p => ?_)
  rw [norm_eq_abs, norm_of_nonneg (by positivity)]
  exact X4_bound hm hT p

/-- **Cut-off**: the components of the momenta are bounded by 1000 for all temperatures. What `K₄` of fermions
misses is at most the part of the momenta above 1000. -/
theorem C108_cutoff (m2 T : ℝ) (hm : 0 ≤ m2) (hT : 0 < T) : ∃ k, functions m2 T 4 1 = some k ∧
    |k - Spec.K 1 T m2 4| ≤ 6 / π ^ 2 * (((1000 / T) ^ 2 + 2 * (1000 / T) + 2) * exp (-(1000 / T))) := by
  refine ⟨integration m2 T 4 1 / norm1 T, by simp [functions, norm1], ?_⟩
  have hn := norm1_neg hT
  have hb := C108_box m2 T 4 1 hm hT (.inl rfl)
  rw [Int.cast_one] at hb
  rw [Spec.K, if_neg (by decide), Spec.angle, C108_norm T hT, hb, ← sub_div, abs_div, abs_of_neg hn,
    div_le_iff₀ (by linarith)]
  have hbm : MeasurableSet (Spec.box 1000) := measurableSet_Icc
  have hsplit := integral_add_compl hbm (integrable_X4 hm hT)
  have hg : Integrable fun p : Fin 3 → ℝ => 1 / T * exp (-(1 / T * radius p)) := by
    refine (integrable_radius fun r => 1 / T * exp (-(1 / T * r))).2 ?_
    refine IntegrableOn.congr_fun ((integrable_pow_exp 2 (b := 1 / T) (by positivity)).const_mul (1 / T))
      (fun r _ => ?_) measurableSet_Ioi
    ring
  have hsub : (Spec.box 1000)ᶜ ⊆ {p : Fin 3 → ℝ | 1000 < radius p} := fun p hp =>
    not_le.1 fun h => hp (ball_subset_box h)
  have h1 : |∫ p in (Spec.box 1000)ᶜ, Spec.X 1 T m2 4 p| ≤
      ∫ p in (Spec.box 1000)ᶜ, 1 / T * exp (-(1 / T * radius p)) := by
    rw [← norm_eq_abs]
    exact norm_integral_le_of_norm_le hg.integrableOn (ae_of_all _ fun p => X4_bound hm hT p)
  have h2 : ∫ p in (Spec.box 1000)ᶜ, 1 / T * exp (-(1 / T * radius p)) ≤
      ∫ p in {p : Fin 3 → ℝ | 1000 < radius p}, 1 / T * exp (-(1 / T * radius p)) :=
    setIntegral_mono_set hg.integrableOn (ae_of_all _ fun p => by positivity) hsub.eventuallyLE
  rw [radial_tail (fun r => 1 / T * exp (-(1 / T * r))) (by norm_num), integral_sq_tail_scaled hT] at h2
  have h3 : (∫ p in Spec.box 1000, Spec.X 1 T m2 4 p) - ∫ p, Spec.X 1 T m2 4 p =
      -∫ p in (Spec.box 1000)ᶜ, Spec.X 1 T m2 4 p := by rw [← hsplit]; ring
  rw [h3, abs_neg]
  refine (h1.trans h2).trans (le_of_eq ?_)
  have := pi_pos
  rw [norm1]
  field_simp
  ring

/-- The bound is small at the temperature 50. -/
example : 6 / π ^ 2 * (((1000 / (50 : ℝ)) ^ 2 + 2 * (1000 / 50) + 2) * exp (-(1000 / 50))) < 1 / 1000000 := by
  have h1 : (3 : ℝ) < π := pi_gt_three
  have h2 : exp (-(1000 / 50 : ℝ)) ≤ 1 / 400000000 := by
    rw [show (-(1000 / 50 : ℝ)) = -20 by norm_num, exp_neg, ← one_div]
    refine one_div_le_one_div_of_le (by norm_num) ?_
    have h := exp_one_gt_d9
    calc (400000000 : ℝ) ≤ 2.7182818283 ^ 20 := by norm_num
      _ ≤ exp 1 ^ 20 := by gcongr
      _ = exp 20 := by rw [← exp_nat_mul]; norm_num
  have h3 : 6 / π ^ 2 ≤ 6 / 3 ^ 2 := by gcongr
  calc _ ≤ 6 / 3 ^ 2 * (((1000 / (50 : ℝ)) ^ 2 + 2 * (1000 / 50) + 2) * (1 / 400000000)) := by gcongr
    _ < _ := by norm_num

/-- **At the temperature 250**, more than three percent of `K₄` of massless fermions are missing. -/
theorem C108_cutoff_fails : ∃ k, functions 0 250 4 1 = some k ∧ k ≤ 97 / 100 * Spec.K 1 250 0 4 := by
  have hT : (0 : ℝ) < 250 := by norm_num
  refine ⟨integration 0 250 4 1 / norm1 250, by simp [functions, norm1], ?_⟩
  rw [(C108_massless 250 hT).2.1]
  have hn := norm1_neg hT
  have hb := C108_box 0 250 4 1 le_rfl hT (.inl rfl)
  rw [Int.cast_one] at hb
  rw [hb, div_le_iff_of_neg hn]
  have e : ∀ p : Fin 3 → ℝ, Spec.X 1 250 0 4 p = p 2 ^ 2 * (Spec.d 1 250 (radius p) / radius p ^ 2) := fun p => by
    simp only [Spec.X, energy_zero]; ring
  have hae : ∀ᵐ p : Fin 3 → ℝ, radius p ^ 2 * (Spec.d 1 250 (radius p) / radius p ^ 2) = Spec.d 1 250 (radius p) := by
    have : ∀ᵐ p : Fin 3 → ℝ, p ≠ 0 := compl_mem_ae_iff.2 (measure_singleton (0 : Fin 3 → ℝ))
    refine this.mono fun p hp => ?_
    have hr : radius p ≠ 0 := by
      have := energy_pos (le_refl (0 : ℝ)) hp
      rw [energy_zero] at this
      exact this.ne'
    field_simp
  have hint : Integrable fun p : Fin 3 → ℝ => Spec.d 1 250 (radius p) :=
    (integrable_radius _).2 (integrable_pow_d 2 hT)
  simp only [e]
  rw [integral_component (Spec.box 1000) (box_exchange 1000) (fun r => Spec.d 1 250 r / r ^ 2)
    ((hint.congr (hae.mono fun p hp => hp.symm)).integrableOn)
    ((measurable_d 250).div (measurable_id.pow_const 2)) 2, integral_congr_ae (ae_restrict_of_ae hae)]
  have hbm : MeasurableSet (Spec.box 1000) := measurableSet_Icc
  have hsplit := integral_add_compl hbm hint
  have htot : ∫ p : Fin 3 → ℝ, Spec.d 1 250 (radius p) = norm1 250 := by
    have := C108_norm 250 hT
    simpa only [energy_zero] using this
  have hsub : {p : Fin 3 → ℝ | 1750 < radius p} ⊆ (Spec.box 1000)ᶜ := fun p hp hq => by
    have h := box_subset_ball hq
    have h1 : (1750 : ℝ) < radius p := hp
    nlinarith
  have h1 : ∫ p in (Spec.box 1000)ᶜ, Spec.d 1 250 (radius p) ≤
      ∫ p in {p : Fin 3 → ℝ | 1750 < radius p}, Spec.d 1 250 (radius p) := by
    have := setIntegral_mono_set (f := fun p : Fin 3 → ℝ => -Spec.d 1 250 (radius p)) hint.neg.integrableOn
      (ae_of_all _ fun p => (neg_pos.2 (fermion_d_nonpos hT _)).le) hsub.eventuallyLE
    rw [integral_neg, integral_neg] at this
    linarith
  rw [radial_tail (fun r => Spec.d 1 250 r) (by norm_num)] at h1
  have hexp : exp (-7) ≤ 1 / 1000 := by
    rw [exp_neg, ← one_div]
    refine one_div_le_one_div_of_le (by norm_num) ?_
    have h := exp_one_gt_d9
    calc (1000 : ℝ) ≤ 2.7182818283 ^ 7 := by norm_num
      _ ≤ exp 1 ^ 7 := by gcongr
      _ = exp 7 := by rw [← exp_nat_mul]; norm_num
  have hexp2 : 1 / 1100 ≤ exp (-7) := by
    rw [exp_neg, ← one_div]
    refine one_div_le_one_div_of_le (exp_pos _) ?_
    have h := exp_one_lt_d9
    calc exp 7 = exp 1 ^ 7 := by rw [← exp_nat_mul]; norm_num
      _ ≤ 2.7182818286 ^ 7 := by gcongr
      _ ≤ 1100 := by norm_num
  have h2 : ∫ r in Set.Ioi (1750 : ℝ), r ^ 2 * Spec.d 1 250 r ≤
      ∫ r in Set.Ioi (1750 : ℝ), -(99 / 100) * (r ^ 2 * (1 / 250 * exp (-(1 / 250 * r)))) := by
    refine setIntegral_mono_on ((integrable_pow_d 2 hT).mono_set (Set.Ioi_subset_Ioi (by norm_num))) ?_
      measurableSet_Ioi fun r hr => ?_
    · have h := IntegrableOn.mono_set
        ((integrable_pow_exp 2 (b := 1 / 250) (by norm_num)).const_mul (-(99 / 100) * (1 / 250)))
        (Set.Ioi_subset_Ioi (show (0 : ℝ) ≤ 1750 by norm_num))
      refine h.congr_fun (fun r _ => ?_) measurableSet_Ioi
      ring
    · have hr' : (1750 : ℝ) < r := hr
      have hx : exp (-(1 / 250 * r)) ≤ 1 / 1000 := le_trans (exp_le_exp.2 (by linarith)) hexp
      have hp := exp_pos (-(1 / 250 * r))
      rw [fermion_d, show r / 250 = -(-(1 / 250 * r)) by ring, exp_neg]
      generalize exp (-(1 / 250 * r)) = y at hx hp
      have hy : y⁻¹ / (y⁻¹ + 1) ^ 2 = y / (1 + y) ^ 2 := by field_simp
      rw [hy]
      have : 99 / 100 * y ≤ y / (1 + y) ^ 2 := by
        rw [le_div_iff₀ (by positivity)]
        nlinarith [mul_pos hp hp]
      nlinarith [sq_nonneg r, mul_le_mul_of_nonneg_left this (sq_nonneg r)]
  rw [integral_const_mul, integral_sq_tail_scaled hT, show (1750 / 250 : ℝ) = 7 by norm_num] at h2
  have hpi := pi_pos
  have hpi2 : π < 3.15 := pi_lt_d2
  have h4 : ∫ p in Spec.box 1000, Spec.d 1 250 (radius p) ≥
      norm1 250 + 4 * π * (99 / 100 * (250 ^ 2 * ((7 ^ 2 + 2 * 7 + 2) * (1 / 1100)))) := by
    have h5 : 4 * π * ∫ r in Set.Ioi (1750 : ℝ), r ^ 2 * Spec.d 1 250 r ≤
        4 * π * (-(99 / 100) * (250 ^ 2 * ((7 ^ 2 + 2 * 7 + 2) * (1 / 1100)))) := by
      refine mul_le_mul_of_nonneg_left (h2.trans ?_) (by positivity)
      nlinarith
    linarith
  refine le_trans ?_ (mul_le_mul_of_nonneg_left h4 (by norm_num))
  rw [norm1]
  have : π ^ 2 ≤ 3.15 ^ 2 := pow_le_pow_left₀ hpi.le hpi2.le 2
  nlinarith [mul_le_mul_of_nonneg_left this hpi.le]

/-! ### The norm of `[ ]` -/

theorem tilde_bound {a x : ℝ} {s : ℤ} (ha : 0 ≤ a) (hs : s = 1 ∨ s = -1) (hx : 0 < x) :
    0 < x ^ 2 / (exp (√ (a + x ^ 2)) + s) ∧ x ^ 2 / (exp (√ (a + x ^ 2)) + s) ≤ x ^ 1 * exp (-(1 * x)) + x ^ 2 * exp (-(1 * x)) := by
  have h1 : x ≤ √ (a + x ^ 2) := le_sqrt_of_sq_le (by linarith)
  have h2 : exp x ≤ exp (√ (a + x ^ 2)) := exp_le_exp.2 h1
  have h3 : (-1 : ℝ) ≤ s := by rcases hs with rfl | rfl <;> simp
  have h4 : x + 1 < exp x := add_one_lt_exp hx.ne'
  have hd : 0 < exp x - 1 := by linarith
  have hp : 0 < exp (√ (a + x ^ 2)) + s := by linarith
  refine ⟨by positivity, ?_⟩
  calc _ ≤ x ^ 2 / (exp x - 1) := by gcongr; linarith
    _ ≤ _ := by
      rw [div_le_iff₀ hd, one_mul, exp_neg]
      have hpos := exp_pos x
      generalize exp x = y at h4 hpos
      have : (x ^ 1 * y⁻¹ + x ^ 2 * y⁻¹) * (y - 1) = (x + x ^ 2) * (y - 1) / y := by field_simp
      rw [this, le_div_iff₀ hpos]
      nlinarith [mul_pos hx (show 0 < y - (x + 1) by linarith)]

theorem integrable_tilde {m2 T : ℝ} {s : ℤ} (hm : 0 ≤ m2) (hs : s = 1 ∨ s = -1) :
    IntegrableOn (fun x => tildeIntegrand x m2 T s) (Set.Ioi 0) := by
  have ha : 0 ≤ m2 * (1 / T) ^ 2 := by positivity
  have hm' : Measurable fun x => tildeIntegrand x m2 T s := by unfold tildeIntegrand; fun_prop
  refine Integrable.mono' ((integrable_pow_exp 1 one_pos).add (integrable_pow_exp 2 one_pos))
    hm'.aestronglyMeasurable ((ae_restrict_iff' measurableSet_Ioi).2 (ae_of_all _ fun x hx => ?_))
  obtain ⟨h1, h2⟩ := tilde_bound ha hs hx
  rw [tildeIntegrand, norm_of_nonneg h1.le]
  exact h2

theorem number_eq {m2 T : ℝ} {s : ℤ} (hT : 0 < T) :
    ∫ p : Fin 3 → ℝ, Spec.distribution s T (Spec.energy m2 p) =
      (∫ x in Set.Ioi (0 : ℝ), tildeIntegrand x m2 T s) * (4 * π * T ^ 3) := by
  simp only [energy_radius]
  rw [integral_radius fun r => Spec.distribution s T (√ (r ^ 2 + m2))]
  have h := integral_comp_mul_left_Ioi (fun x => tildeIntegrand x m2 T s) 0 (b := 1 / T) (by positivity)
  rw [mul_zero, smul_eq_mul] at h
  have e : ∀ r ∈ Set.Ioi (0 : ℝ), r ^ 2 * Spec.distribution s T (√ (r ^ 2 + m2)) =
      T ^ 2 * tildeIntegrand (1 / T * r) m2 T s := fun r _ => by
    have h1 : √ (m2 * (1 / T) ^ 2 + (1 / T * r) ^ 2) = √ (r ^ 2 + m2) / T := by
      rw [show m2 * (1 / T) ^ 2 + (1 / T * r) ^ 2 = (r ^ 2 + m2) / T ^ 2 by field_simp; ring,
        sqrt_div' _ (sq_nonneg T), sqrt_sq hT.le]
    simp only [Spec.distribution, tildeIntegrand, h1]
    rw [← mul_div_assoc, mul_one, ← mul_div_assoc]
    congr 1
    field_simp
  rw [setIntegral_congr_fun measurableSet_Ioi e, integral_const_mul, h]
  field_simp

/-- **The norm of `[ ]`** is smaller than the integral that defines it, and at most by `4πT³·2·10⁻¹⁰`. -/
theorem C108_tilde_norm (m2 T : ℝ) (s : ℤ) (hm : 0 ≤ m2) (hT : 0 < T) (hs : s = 1 ∨ s = -1) :
    0 < tildeNorm T s m2 ∧
    tildeNorm T s m2 < ∫ p : Fin 3 → ℝ, Spec.distribution s T (Spec.energy m2 p) ∧
    (∫ p : Fin 3 → ℝ, Spec.distribution s T (Spec.energy m2 p)) ≤ tildeNorm T s m2 + 4 * π * T ^ 3 * (2 / 10 ^ 10) := by
  have hpi := pi_pos
  have hi := integrable_tilde (T := T) hm hs
  have ha : 0 ≤ m2 * (1 / T) ^ 2 := by positivity
  have h30 : IntegrableOn (fun x => tildeIntegrand x m2 T s) (Set.Ioi 30) :=
    hi.mono_set (Set.Ioi_subset_Ioi (by norm_num))
  have hsplit := intervalIntegral.integral_Ioi_sub_Ioi (a := 0) (b := 30) hi (by norm_num)
  have hc : 0 < 4 * π * T ^ 3 := by positivity
  have hpos : ∀ x, 0 < x → 0 < tildeIntegrand x m2 T s := fun x hx => (tilde_bound ha hs hx).1
  have htail : 0 < ∫ x in Set.Ioi (30 : ℝ), tildeIntegrand x m2 T s := by
    rw [setIntegral_pos_iff_support_of_nonneg_ae
      ((ae_restrict_iff' measurableSet_Ioi).2 (ae_of_all _ fun x hx => (hpos x (lt_trans (by norm_num) hx)).le)) h30,
      Set.inter_eq_right.2 (show Set.Ioi (30 : ℝ) ⊆ Function.support fun x => tildeIntegrand x m2 T s from
        fun x hx => Function.mem_support.2 (hpos x (lt_trans (by norm_num) hx)).ne')]
    simp
  have hle : ∫ x in Set.Ioi (30 : ℝ), tildeIntegrand x m2 T s ≤ 2 / 10 ^ 10 := by
    have h1 : ∫ x in Set.Ioi (30 : ℝ), tildeIntegrand x m2 T s ≤ ∫ x in Set.Ioi (30 : ℝ), 2 * (x ^ 2 * exp (-x)) := by
      refine setIntegral_mono_on h30 ((integral_sq_tail 30).2.const_mul 2) measurableSet_Ioi fun x hx => ?_
      have hx' : (30 : ℝ) < x := hx
      have e1 : x ≤ √ (m2 * (1 / T) ^ 2 + x ^ 2) := le_sqrt_of_sq_le (by linarith)
      have e2 := exp_le_exp.2 e1
      have e3 : (-1 : ℝ) ≤ s := by rcases hs with rfl | rfl <;> simp
      have e4 := add_one_lt_exp (show x ≠ 0 by linarith)
      rw [tildeIntegrand, div_le_iff₀ (by linarith)]
      have e5 : 1 / 2 * exp x ≤ exp (√ (m2 * (1 / T) ^ 2 + x ^ 2)) + s := by linarith
      calc x ^ 2 = 2 * (x ^ 2 * exp (-x)) * (1 / 2 * exp x) := by
            rw [exp_neg]; field_simp
        _ ≤ _ := by gcongr
    rw [integral_const_mul, (integral_sq_tail 30).1] at h1
    refine h1.trans ?_
    have h2 : exp (-30) ≤ 1 / 10 ^ 13 := by
      rw [exp_neg, ← one_div]
      refine one_div_le_one_div_of_le (by norm_num) ?_
      have h := exp_one_gt_d9
      calc (10 ^ 13 : ℝ) ≤ 2.7182818283 ^ 30 := by norm_num
        _ ≤ exp 1 ^ 30 := by gcongr
        _ = exp 30 := by rw [← exp_nat_mul]; norm_num
    calc _ ≤ 2 * ((30 ^ 2 + 2 * 30 + 2) * (1 / 10 ^ 13 : ℝ)) := by gcongr
      _ ≤ _ := by norm_num
  have hfin : 0 < ∫ x in (0 : ℝ)..30, tildeIntegrand x m2 T s := by
    refine intervalIntegral.intervalIntegral_pos_of_pos_on ?_ (fun x hx => hpos x hx.1) (by norm_num)
    rw [intervalIntegrable_iff_integrableOn_Ioc_of_le (by norm_num)]
    exact hi.mono_set Set.Ioc_subset_Ioi_self
  rw [number_eq hT, tildeNorm, xmax]
  refine ⟨by positivity, ?_, ?_⟩
  · refine mul_lt_mul_of_pos_right ?_ hc
    linarith
  · rw [show 4 * π * T ^ 3 * (2 / 10 ^ 10) = 2 / 10 ^ 10 * (4 * π * T ^ 3) by ring, ← add_mul]
    refine mul_le_mul_of_nonneg_right ?_ hc.le
    linarith

/-- What the code says about its bound: the integrand is smaller than `10⁻¹⁰` there and behind it. -/
theorem C108_tilde_bound (x m2 T : ℝ) (s : ℤ) (hm : 0 ≤ m2) (hs : s = 1 ∨ s = -1) (hx : xmax ≤ x) :
    0 < tildeIntegrand x m2 T s ∧ tildeIntegrand x m2 T s < 1 / 10 ^ 10 ∧
      ∀ m2', m2 ≤ m2' → tildeIntegrand x m2' T s ≤ tildeIntegrand x m2 T s := by
  rw [xmax] at hx
  have ha : 0 ≤ m2 * (1 / T) ^ 2 := by positivity
  have hx0 : 0 < x := by linarith
  have hs' : (-1 : ℝ) ≤ s := by rcases hs with rfl | rfl <;> simp
  have hd : ∀ m, 0 ≤ m → exp x - 1 ≤ exp (√ (m * (1 / T) ^ 2 + x ^ 2)) + s := fun m hm => by
    have e1 : x ≤ √ (m * (1 / T) ^ 2 + x ^ 2) := le_sqrt_of_sq_le (by nlinarith [mul_nonneg hm (sq_nonneg (1 / T))])
    have e2 := exp_le_exp.2 e1
    linarith
  have h1 : 0 < exp x - 1 := by linarith [add_one_lt_exp hx0.ne']
  refine ⟨(tilde_bound ha hs hx0).1, ?_, fun m2' hm' => ?_⟩
  · have h30 : (10 : ℝ) ^ 13 ≤ exp 30 := by
      have h := exp_one_gt_d9
      calc (10 ^ 13 : ℝ) ≤ 2.7182818283 ^ 30 := by norm_num
        _ ≤ exp 1 ^ 30 := by gcongr
        _ = exp 30 := by rw [← exp_nat_mul]; norm_num
    have h2 : x ^ 2 ≤ 900 * exp (x - 30) := by
      have e1 : x / 30 ≤ exp (x / 30 - 1) := by linarith [add_one_le_exp (x / 30 - 1)]
      have e2 := pow_le_pow_left₀ (by positivity) e1 2
      rw [← exp_nat_mul] at e2
      have e3 : exp ((2 : ℕ) * (x / 30 - 1)) ≤ exp (x - 30) := exp_le_exp.2 (by push_cast; linarith)
      have e4 : (x / 30) ^ 2 = x ^ 2 / 900 := by ring
      rw [e4] at e2
      linarith
    have h3 : exp (x - 30) * (exp 30 - 1) ≤ exp x - 1 := by
      have e1 : exp (x - 30) * exp 30 = exp x := by rw [← exp_add]; congr 1; ring
      have e2 : 1 ≤ exp (x - 30) := one_le_exp (by linarith)
      nlinarith
    rw [tildeIntegrand, div_lt_iff₀ (by linarith [hd m2 hm])]
    have h4 := hd m2 hm
    have h5 : 900 * exp (x - 30) < 1 / 10 ^ 10 * (exp (x - 30) * (exp 30 - 1)) := by
      have := exp_pos (x - 30)
      nlinarith
    linarith
  · have h2 := hd m2 hm
    have h3 : exp (√ (m2 * (1 / T) ^ 2 + x ^ 2)) ≤ exp (√ (m2' * (1 / T) ^ 2 + x ^ 2)) := by gcongr
    rw [tildeIntegrand, tildeIntegrand]
    refine div_le_div_of_nonneg_left (by positivity) (by linarith) (by linarith)

/-! ### The interpolated functions -/

theorem norm2_eq {k : Tables} {m2 T : ℝ} (h : produced k m2 T) (hT : 0 < T) :
    norm2 k m2 T 1 = tildeNorm T 1 m2 ∧ norm2 k m2 T (-1) = tildeNorm T (-1) m2 := by
  have e : ∀ s, tildeNorm 1 s (m2 / T ^ 2) * T ^ 3 = tildeNorm T s m2 := fun s => by
    have : ∀ x, tildeIntegrand x (m2 / T ^ 2) 1 s = tildeIntegrand x m2 T s := fun x => by
      simp only [tildeIntegrand]
      rw [show m2 / T ^ 2 * (1 / 1) ^ 2 = m2 * (1 / T) ^ 2 by field_simp]
    simp only [tildeNorm, this]
    ring
  obtain ⟨-, -, -, -, -, -, -, -, -, -, h1, h2⟩ := h
  exact ⟨by rw [norm2, if_pos rfl, h2, e], by rw [norm2, if_neg (by decide), h1, e]⟩

/-- **Interpolated functions**: at the points of the tables, all but `K₈` are those that are calculated directly. -/
theorem C108_interpolated (k : Tables) (m2 T : ℝ) (hT : 0 < T) (h : produced k m2 T) :
    functions m2 T 1 1 = some (k1fermion k m2 T) ∧ functions m2 T 1 (-1) = some (k1boson k m2 T) ∧
    functions m2 T 2 1 = some (k2fermion k m2 T) ∧ functions m2 T 4 1 = some (k4fermion k m2 T) ∧
    functions m2 T 4 (-1) = some (k4boson k m2 T) ∧ functions m2 T 5 1 = some (k5fermion k m2 T) ∧
    functions m2 T 5 (-1) = some (k5boson k m2 T) ∧ functions m2 T 6 1 = some (k6fermion k m2 T) ∧
    (1 / 10 ^ 15 ≤ m2 → functions m2 T 9 1 = some (k9fermion k m2 T)) := by
  obtain ⟨n1, n2⟩ := norm2_eq h hT
  obtain ⟨h1, h2, h4, h5, h6, -, h9, b1, b4, b5, -, -⟩ := h
  refine ⟨?_, ?_, ?_, ?_, ?_, ?_, ?_, ?_, fun hm => ?_⟩
  · simp [functions, k1fermion, norm1, h1]
  · simp [functions, k1boson, norm1, b1]
  · simp [functions, k2fermion, norm1, h2]
  · simp [functions, k4fermion, norm1, h4]
  · simp [functions, k4boson, norm1, b4]
  · simp [functions, k5fermion, n1, h5]
  · simp [functions, k5boson, n2, b5]
  · simp [functions, k6fermion, n1, h6]
  · rw [max_eq_left hm] at h9
    simp [functions, k9fermion, norm1, h9]

/-- Tables with these values at all points. -/
noncomputable def allTables : Tables where
  k1p m2 T := integration m2 T 1 1
  k1m m2 T := integration m2 T 1 (-1)
  k2p m2 T := integration m2 T 2 1
  k4p m2 T := integration m2 T 4 1
  k4m m2 T := integration m2 T 4 (-1)
  k5p m2 T := integration m2 T 5 1
  k5m m2 T := integration m2 T 5 (-1)
  k6p m2 T := integration m2 T 6 1
  k8p m2 T := integration m2 T 8 1
  k9p m2 T := integration (max m2 (1 / 10 ^ 15)) T 9 1
  fermionNorm := tildeNorm 1 1
  bosonNorm := tildeNorm 1 (-1)

example (m2 T : ℝ) : produced allTables m2 T := ⟨rfl, rfl, rfl, rfl, rfl, rfl, rfl, rfl, rfl, rfl, rfl, rfl⟩

theorem integration8_neg {m2 T : ℝ} (hm : 0 < m2) (hT : 0 < T) : integration m2 T 8 1 < 0 := by
  have hb := C108_box m2 T 8 1 hm.le hT (.inl rfl)
  rw [Int.cast_one] at hb
  rw [hb]
  have hE : ∀ p, 0 < Spec.energy m2 p := fun p => sqrt_pos.2 (by positivity)
  have hZ : ∀ p : Fin 3 → ℝ, 0 < Spec.energyZ m2 p := fun p => sqrt_pos.2 (by positivity)
  have hX : ∀ p, Spec.X 1 T m2 8 p = -(|p 2| * (1 / T * (exp (Spec.energy m2 p / T) / (exp (Spec.energy m2 p / T) + 1) ^ 2)) /
      (2 * Spec.energy m2 p ^ 2 * Spec.energyZ m2 p)) := fun p => by
    simp only [Spec.X, fermion_d]
    ring
  have hcE : Continuous (Spec.energy m2) := by unfold Spec.energy; fun_prop
  have hcZ : Continuous (Spec.energyZ m2) := by unfold Spec.energyZ; fun_prop
  have hc : Continuous fun p : Fin 3 → ℝ => |p 2| * (1 / T * (exp (Spec.energy m2 p / T) / (exp (Spec.energy m2 p / T) + 1) ^ 2)) /
      (2 * Spec.energy m2 p ^ 2 * Spec.energyZ m2 p) := by
    refine Continuous.div ?_ (by fun_prop) fun p => ?_
    · refine Continuous.mul (by fun_prop) (Continuous.mul continuous_const ?_)
      refine Continuous.div (by fun_prop) (by fun_prop) fun p => by positivity
    · have := hE p; have := hZ p; positivity
  simp only [hX, Spec.box]
  rw [integral_neg, neg_lt_zero]
  rw [setIntegral_pos_iff_support_of_nonneg_ae (ae_of_all _ fun p => by
      have := hE p; have := hZ p; positivity) (hc.continuousOn.integrableOn_compact isCompact_Icc)]
  have hopen : IsOpen (Set.pi Set.univ fun _ : Fin 3 => Set.Ioo (0 : ℝ) 1) :=
    isOpen_set_pi Set.finite_univ fun _ _ => isOpen_Ioo
  refine lt_of_lt_of_le (hopen.measure_pos volume ⟨fun _ => 1 / 2, fun _ _ => by norm_num⟩) (measure_mono fun p hp => ?_)
  have hp' : ∀ i, 0 < p i ∧ p i < 1 := fun i => hp i (Set.mem_univ i)
  refine ⟨?_, fun i => ?_, fun i => ?_⟩
  · have := hE p; have := hZ p; have := abs_pos.2 (hp' 2).1.ne'
    refine Function.mem_support.2 (ne_of_gt ?_)
    positivity
  · show (-1000 : ℝ) ≤ p i
    linarith [(hp' i).1]
  · show p i ≤ 1000
    linarith [(hp' i).2]

/-- **The interpolated `K₈`** is divided by the norm of `[ ]` and has the wrong sign for all masses and
temperatures. -/
theorem C108_k8_fails (k : Tables) (m2 T : ℝ) (hm : 0 < m2) (hT : 0 < T) (h : produced k m2 T) :
    ∃ v, functions m2 T 8 1 = some v ∧ 0 < v ∧ k8fermion k m2 T < 0 := by
  have hneg := integration8_neg hm hT
  refine ⟨integration m2 T 8 1 / norm1 T, by simp [functions, norm1], div_pos_of_neg_of_neg hneg (norm1_neg hT), ?_⟩
  rw [k8fermion, (norm2_eq h hT).1, h.2.2.2.2.2.1]
  exact div_neg_of_neg_of_pos hneg (C108_tilde_norm m2 T 1 hm.le hT (.inl rfl)).1

end Verif.Kfactors
