import Verif.Thermal.Numeric
import Verif.Thermal.InterpProps
import Mathlib.Analysis.SpecialFunctions.ImproperIntegrals
import Mathlib.Analysis.Calculus.ParametricIntegral
import Mathlib.MeasureTheory.Integral.IntervalIntegral.FundThmCalculus
import Mathlib.Analysis.Complex.ExponentialBounds
import Mathlib.Tactic.Positivity
import Mathlib.Tactic.NormNum
import Mathlib.Tactic.Linarith

/-!
# The numerical thermal integrals (C131)
-/

set_option linter.unusedVariables false

namespace Verif.Thermal

open Real MeasureTheory Set

/-! ## Specification -/

namespace NumericSpec

/-- The thermal integral of bosons, as a function of the squared mass over the squared temperature. -/
noncomputable def jBoson (x : ℝ) : ℝ := ∫ k in Ioi (0 : ℝ), k ^ 2 * log (1 - exp (-√(k ^ 2 + x)))

/-- The thermal integral of fermions, with the sign that the program gives it here. -/
noncomputable def jFermion (x : ℝ) : ℝ := ∫ k in Ioi (0 : ℝ), k ^ 2 * log (1 + exp (-√(k ^ 2 + x)))

/-- An exact integrator. -/
def Exact (integ : (ℝ → ℝ) → ℝ → ℝ → ℝ) : Prop :=
  ∀ (f : ℝ → ℝ) (a b : ℝ), a ≤ b → IntegrableOn f (Ioc a b) → integ f a b = ∫ x in Ioc a b, f x

end NumericSpec

open NumericSpec

/-! ## The integrands in real form and their bounds -/

noncomputable def root (x k : ℝ) : ℝ := √(k * k + x)
noncomputable def bVal (x k : ℝ) : ℝ := k * k * log (1 - exp (-root x k))
noncomputable def bDer (x k : ℝ) : ℝ := k * k * exp (-root x k) / (2 * root x k * (1 - exp (-root x k)))
noncomputable def fVal (x k : ℝ) : ℝ := k * k * log (1 + exp (-root x k))
noncomputable def fDer (x k : ℝ) : ℝ := -k * k * exp (-root x k) / (2 * root x k * (1 + exp (-root x k)))

theorem integrand_real {x k : ℝ} (h : 0 < k * k + x) : bosonIntegrand x k 0 = bVal x k ∧
    bosonIntegrand x k 1 = bDer x k ∧ fermionIntegrand x k 0 = fVal x k ∧ fermionIntegrand x k 1 = fDer x k := by
  obtain ⟨-, -, h1, h2⟩ := C63_integrands_positive x k h
  refine ⟨h1, ?_, h2, ?_⟩
  · have e : ((k : ℂ) * k * Complex.exp (-csqrt (k * k + x)) /
        (2 * csqrt (k * k + x) * (1 - Complex.exp (-csqrt (k * k + x))))) = ((bDer x k : ℝ) : ℂ) := by
      simp only [csqrt, if_pos h.le, bDer, root]
      push_cast
      rfl
    simp only [bosonIntegrand, if_neg (show ¬ ((1 : Int) = 0) by decide), if_true, e, Complex.ofReal_re]
  · have e : (-(k : ℂ) * k * Complex.exp (-csqrt (k * k + x)) /
        (2 * csqrt (k * k + x) * (1 + Complex.exp (-csqrt (k * k + x))))) = ((fDer x k : ℝ) : ℂ) := by
      simp only [csqrt, if_pos h.le, fDer, root]
      push_cast
      rfl
    simp only [fermionIntegrand, if_neg (show ¬ ((1 : Int) = 0) by decide), if_true, e, Complex.ofReal_re]

theorem root_ge {x k : ℝ} (hx : 0 ≤ x) (hk : 0 < k) : k ≤ root x k :=
  le_sqrt_of_sq_le (by nlinarith)

theorem exp_sub_one {k : ℝ} (hk : 0 < k) : k / 2 * exp (k / 2) ≤ exp k - 1 := by
  have h1 := add_one_le_exp (k / 2)
  have h2 : exp k = exp (k / 2) * exp (k / 2) := by rw [← exp_add]; congr 1; ring
  have h3 := exp_pos (k / 2)
  rw [h2]
  nlinarith

theorem exp_sub_pos {k : ℝ} (hk : 0 < k) : 0 < exp k - 1 := by
  have := add_one_lt_exp hk.ne'
  linarith

theorem small_arg {s : ℝ} (hs : 0 < s) : 0 < 1 - exp (-s) ∧ exp (-s) / (1 - exp (-s)) = 1 / (exp s - 1) := by
  have h1 := exp_sub_pos hs
  have h2 := exp_pos s
  have e : exp (-s) = 1 / exp s := by rw [exp_neg, one_div]
  have h3 : 1 - exp (-s) = (exp s - 1) / exp s := by rw [e]; field_simp
  refine ⟨by rw [h3]; positivity, ?_⟩
  rw [h3, e]
  field_simp

theorem exp_mono_sub {x k : ℝ} (hx : 0 ≤ x) (hk : 0 < k) :
    0 < 1 / (exp (root x k) - 1) ∧ 1 / (exp (root x k) - 1) ≤ 1 / (exp k - 1) := by
  have h1 := exp_sub_pos hk
  have h2 := exp_le_exp.2 (root_ge hx hk)
  have h3 : exp k - 1 ≤ exp (root x k) - 1 := by linarith
  exact ⟨one_div_pos.2 (lt_of_lt_of_le h1 h3), one_div_le_one_div_of_le h1 h3⟩

theorem bVal_le {x k : ℝ} (hx : 0 ≤ x) (hk : 0 < k) : |bVal x k| ≤ k * k * (1 / (exp k - 1)) := by
  have hs := lt_of_lt_of_le hk (root_ge hx hk)
  obtain ⟨p, e⟩ := small_arg hs
  obtain ⟨-, m⟩ := exp_mono_sub hx hk
  have l1 := one_sub_inv_le_log_of_pos p
  have l2 : log (1 - exp (-root x k)) ≤ 0 := log_nonpos p.le (by have := exp_pos (-root x k); linarith)
  have e2 : 1 - (1 - exp (-root x k))⁻¹ = -(1 / (exp (root x k) - 1)) := by
    rw [← e]; field_simp; ring
  rw [bVal, abs_mul, abs_of_nonneg (by positivity), abs_of_nonpos l2]
  refine mul_le_mul_of_nonneg_left ?_ (by positivity)
  linarith

theorem fVal_le {x k : ℝ} (hx : 0 ≤ x) (hk : 0 < k) : |fVal x k| ≤ k * k * (1 / (exp k - 1)) := by
  have hs := lt_of_lt_of_le hk (root_ge hx hk)
  obtain ⟨p, e⟩ := small_arg hs
  obtain ⟨-, m⟩ := exp_mono_sub hx hk
  have q := exp_pos (-root x k)
  have l1 := log_le_sub_one_of_pos (show 0 < 1 + exp (-root x k) by positivity)
  have l2 : 0 ≤ log (1 + exp (-root x k)) := log_nonneg (by linarith)
  have l3 : exp (-root x k) ≤ exp (-root x k) / (1 - exp (-root x k)) := by
    rw [le_div_iff₀ p]; nlinarith
  rw [fVal, abs_mul, abs_of_nonneg (by positivity), abs_of_nonneg l2]
  refine mul_le_mul_of_nonneg_left ?_ (by positivity)
  linarith

theorem der_aux {x k : ℝ} (hx : 0 ≤ x) (hk : 0 < k) (d : ℝ) (hd : 1 - exp (-root x k) ≤ d) :
    |k * k * exp (-root x k) / (2 * root x k * d)| ≤ k / 2 * (1 / (exp k - 1)) := by
  have hr := root_ge hx hk
  have hs := lt_of_lt_of_le hk hr
  obtain ⟨p, e⟩ := small_arg hs
  obtain ⟨-, m⟩ := exp_mono_sub hx hk
  have q := exp_pos (-root x k)
  have hd0 : 0 < d := lt_of_lt_of_le p hd
  rw [abs_of_nonneg (by positivity)]
  have e2 : k * k * exp (-root x k) / (2 * root x k * d) =
      k * (k / root x k) / 2 * (exp (-root x k) / d) := by field_simp
  rw [e2]
  have a1 : k / root x k ≤ 1 := (div_le_one hs).2 hr
  have a2 : exp (-root x k) / d ≤ 1 / (exp k - 1) := by
    refine le_trans ?_ (e.le.trans m)
    gcongr
  have a3 : k * (k / root x k) / 2 ≤ k / 2 := by nlinarith
  exact mul_le_mul a3 a2 (by positivity) (by positivity)

theorem bDer_le {x k : ℝ} (hx : 0 ≤ x) (hk : 0 < k) : |bDer x k| ≤ k / 2 * (1 / (exp k - 1)) :=
  der_aux hx hk _ (le_refl _)

theorem fDer_le {x k : ℝ} (hx : 0 ≤ x) (hk : 0 < k) : |fDer x k| ≤ k / 2 * (1 / (exp k - 1)) := by
  have := der_aux hx hk (1 + exp (-root x k)) (by have := exp_pos (-root x k); linarith)
  rw [fDer, show -k * k * exp (-root x k) / (2 * root x k * (1 + exp (-root x k))) =
    -(k * k * exp (-root x k) / (2 * root x k * (1 + exp (-root x k)))) by ring, abs_neg]
  exact this

theorem bound0 {k : ℝ} (hk : 0 < k) : k * k * (1 / (exp k - 1)) ≤ 8 * exp (-(1 / 4) * k) := by
  have h1 := exp_sub_one hk
  have h2 := exp_sub_pos hk
  rw [mul_one_div, div_le_iff₀ h2]
  have h3 : k / 4 ≤ exp (k / 4) := by have := add_one_le_exp (k / 4); linarith
  have e1 : exp (k / 2) = exp (k / 4) * exp (k / 4) := by rw [← exp_add]; congr 1; ring
  have e2 : exp (-(1 / 4) * k) = (exp (k / 4))⁻¹ := by rw [← exp_neg]; congr 1; ring
  have p := exp_pos (k / 4)
  refine le_trans ?_ (mul_le_mul_of_nonneg_left h1 (by positivity))
  rw [e1, e2]
  have e3 : 8 * (exp (k / 4))⁻¹ * (k / 2 * (exp (k / 4) * exp (k / 4))) = 4 * k * exp (k / 4) := by
    field_simp; ring
  rw [e3]
  nlinarith

theorem bound1 {k : ℝ} (hk : 0 < k) : k / 2 * (1 / (exp k - 1)) ≤ 8 * exp (-(1 / 4) * k) := by
  have h1 := exp_sub_one hk
  have h2 := exp_sub_pos hk
  rw [mul_one_div, div_le_iff₀ h2]
  have h3 : 1 ≤ exp (k / 4) := one_le_exp (by positivity)
  have e1 : exp (k / 2) = exp (k / 4) * exp (k / 4) := by rw [← exp_add]; congr 1; ring
  have e2 : exp (-(1 / 4) * k) = (exp (k / 4))⁻¹ := by rw [← exp_neg]; congr 1; ring
  have p := exp_pos (k / 4)
  refine le_trans ?_ (mul_le_mul_of_nonneg_left h1 (by positivity))
  rw [e1, e2]
  have e3 : 8 * (exp (k / 4))⁻¹ * (k / 2 * (exp (k / 4) * exp (k / 4))) = 4 * k * exp (k / 4) := by
    field_simp; ring
  rw [e3]
  nlinarith

theorem tail0 {k : ℝ} (hk : 30 < k) : k * k * (1 / (exp k - 1)) ≤ 400 * exp (-(9 / 10) * k) := by
  have h2 := exp_sub_pos (show 0 < k by linarith)
  have h4 : exp k / 2 ≤ exp k - 1 := by have := add_one_le_exp k; linarith
  rw [mul_one_div, div_le_iff₀ h2]
  have h5 := quadratic_le_exp_of_nonneg (show 0 ≤ k / 10 by linarith)
  have h6 : k * k ≤ 200 * exp (k / 10) := by nlinarith
  refine le_trans ?_ (mul_le_mul_of_nonneg_left h4 (by positivity))
  have e : 400 * exp (-(9 / 10) * k) * (exp k / 2) = 200 * exp (k / 10) := by
    rw [show 400 * exp (-(9 / 10) * k) * (exp k / 2) = 200 * (exp (-(9 / 10) * k) * exp k) by ring, ← exp_add]
    congr 2
    ring
  rw [e]
  exact h6

theorem tail1 {k : ℝ} (hk : 30 < k) : k / 2 * (1 / (exp k - 1)) ≤ 400 * exp (-(9 / 10) * k) := by
  have h2 := exp_sub_pos (show 0 < k by linarith)
  refine le_trans ?_ (tail0 hk)
  have : 0 < 1 / (exp k - 1) := one_div_pos.2 h2
  exact mul_le_mul_of_nonneg_right (by nlinarith) this.le

theorem tail_value : 400 * (-exp (-(9 / 10) * 30) / -(9 / 10)) ≤ (1e-9 : ℝ) := by
  have h1 : exp (-(9 / 10) * 30) = (exp 1 ^ 27)⁻¹ := by
    rw [← exp_nat_mul, ← exp_neg]; norm_num
  have h2 : (2.7182 : ℝ) ≤ exp 1 := by have := exp_one_gt_d9; linarith
  have h3 : (2.7182 : ℝ) ^ 27 ≤ exp 1 ^ 27 := by gcongr
  have h4 : (exp 1 ^ 27)⁻¹ ≤ ((2.7182 : ℝ) ^ 27)⁻¹ := inv_anti₀ (by positivity) h3
  have h5 : 400 * (((2.7182 : ℝ) ^ 27)⁻¹ / (9 / 10)) ≤ 1e-9 := by norm_num
  rw [h1, neg_div_neg_eq]
  refine le_trans ?_ h5
  gcongr

/-- The part of an integral beyond 30. -/
theorem cut {f : ℝ → ℝ} (hm : AEStronglyMeasurable f (volume.restrict (Ioi 0)))
    (h0 : ∀ k, 0 < k → |f k| ≤ 8 * exp (-(1 / 4) * k)) (h1 : ∀ k, 30 < k → |f k| ≤ 400 * exp (-(9 / 10) * k)) :
    IntegrableOn f (Ioi 0) ∧ |(∫ k in Ioc 0 30, f k) - ∫ k in Ioi (0 : ℝ), f k| ≤ 1e-9 := by
  have hint : IntegrableOn f (Ioi 0) := by
    refine Integrable.mono' ((integrableOn_exp_mul_Ioi (a := -(1 / 4)) (by norm_num) 0).const_mul 8) hm ?_
    exact (ae_restrict_iff' measurableSet_Ioi).2 (ae_of_all _ fun k hk => h0 k hk)
  refine ⟨hint, ?_⟩
  have e : Ioi (0 : ℝ) = Ioc 0 30 ∪ Ioi 30 := (Ioc_union_Ioi_eq_Ioi (by norm_num)).symm
  have i1 : IntegrableOn f (Ioc 0 30) := hint.mono_set fun x hx => hx.1
  have i2 : IntegrableOn f (Ioi 30) := hint.mono_set (Ioi_subset_Ioi (by norm_num))
  rw [e, setIntegral_union (Ioc_disjoint_Ioi (le_refl _)) measurableSet_Ioi i1 i2, sub_add_cancel_left, abs_neg]
  have hneg : (-(9 / 10) : ℝ) < 0 := by norm_num
  have h : ‖∫ k in Ioi (30 : ℝ), f k‖ ≤ ∫ k in Ioi (30 : ℝ), 400 * exp (-(9 / 10) * k) := by
    refine norm_integral_le_of_norm_le ((integrableOn_exp_mul_Ioi hneg 30).const_mul 400) ?_
    exact (ae_restrict_iff' measurableSet_Ioi).2 (ae_of_all _ fun k hk => h1 k hk)
  rw [integral_const_mul, integral_exp_mul_Ioi hneg] at h
  exact h.trans tail_value

theorem meas (x : ℝ) : Measurable (bVal x) ∧ Measurable (bDer x) ∧ Measurable (fVal x) ∧ Measurable (fDer x) := by
  have hr : Measurable (root x) := by unfold root; fun_prop
  refine ⟨?_, ?_, ?_, ?_⟩
  · unfold bVal; fun_prop
  · unfold bDer; fun_prop
  · unfold fVal; fun_prop
  · unfold fDer; fun_prop

theorem cuts {x : ℝ} (hx : 0 ≤ x) :
    (IntegrableOn (bVal x) (Ioi 0) ∧ |(∫ k in Ioc 0 30, bVal x k) - ∫ k in Ioi (0 : ℝ), bVal x k| ≤ 1e-9) ∧
    (IntegrableOn (bDer x) (Ioi 0) ∧ |(∫ k in Ioc 0 30, bDer x k) - ∫ k in Ioi (0 : ℝ), bDer x k| ≤ 1e-9) ∧
    (IntegrableOn (fVal x) (Ioi 0) ∧ |(∫ k in Ioc 0 30, fVal x k) - ∫ k in Ioi (0 : ℝ), fVal x k| ≤ 1e-9) ∧
    (IntegrableOn (fDer x) (Ioi 0) ∧ |(∫ k in Ioc 0 30, fDer x k) - ∫ k in Ioi (0 : ℝ), fDer x k| ≤ 1e-9) := by
  obtain ⟨m1, m2, m3, m4⟩ := meas x
  have pos : ∀ {k : ℝ}, 30 < k → 0 < k := fun h => by linarith
  exact ⟨cut m1.aestronglyMeasurable (fun k hk => (bVal_le hx hk).trans (bound0 hk))
      (fun k hk => (bVal_le hx (pos hk)).trans (tail0 hk)),
    cut m2.aestronglyMeasurable (fun k hk => (bDer_le hx hk).trans (bound1 hk))
      (fun k hk => (bDer_le hx (pos hk)).trans (tail1 hk)),
    cut m3.aestronglyMeasurable (fun k hk => (fVal_le hx hk).trans (bound0 hk))
      (fun k hk => (fVal_le hx (pos hk)).trans (tail0 hk)),
    cut m4.aestronglyMeasurable (fun k hk => (fDer_le hx hk).trans (bound1 hk))
      (fun k hk => (fDer_le hx (pos hk)).trans (tail1 hk))⟩

theorem sub30 : Ioc (0 : ℝ) 30 ⊆ Ioi 0 := fun _ h => h.1

/-- What the program computes with an exact integrator. -/
theorem numeric_eq (integ : (ℝ → ℝ) → ℝ → ℝ → ℝ) (hi : Exact integ) {x : ℝ} (hx : 0 ≤ x) :
    bosonNumeric integ x 0 = (∫ k in Ioc 0 30, bVal x k) ∧ bosonNumeric integ x 1 = (∫ k in Ioc 0 30, bDer x k) ∧
    fermionNumeric integ x 0 = (∫ k in Ioc 0 30, fVal x k) ∧
    fermionNumeric integ x 1 = (∫ k in Ioc 0 30, fDer x k) := by
  obtain ⟨⟨i1, -⟩, ⟨i2, -⟩, ⟨i3, -⟩, ⟨i4, -⟩⟩ := cuts hx
  have key : ∀ (f g : ℝ → ℝ), (∀ k, 0 < k → f k = g k) → IntegrableOn g (Ioi 0) →
      integ f 0 30 = ∫ k in Ioc 0 30, g k := by
    intro f g h hg
    have he : EqOn f g (Ioc 0 30) := fun k hk => h k hk.1
    rw [hi f 0 30 (by norm_num) ((hg.mono_set sub30).congr_fun he.symm measurableSet_Ioc)]
    exact setIntegral_congr_fun measurableSet_Ioc he
  have hp : ∀ k : ℝ, 0 < k → 0 < k * k + x := fun k hk => by positivity
  exact ⟨key _ _ (fun k hk => (integrand_real (hp k hk)).1) i1,
    key _ _ (fun k hk => (integrand_real (hp k hk)).2.1) i2,
    key _ _ (fun k hk => (integrand_real (hp k hk)).2.2.1) i3,
    key _ _ (fun k hk => (integrand_real (hp k hk)).2.2.2) i4⟩

theorem spec_eq (x : ℝ) : jBoson x = (∫ k in Ioi (0 : ℝ), bVal x k) ∧ jFermion x = ∫ k in Ioi (0 : ℝ), fVal x k := by
  constructor
  · unfold jBoson
    congr 1
    ext k
    rw [bVal, root, pow_two]
  · unfold jFermion
    congr 1
    ext k
    rw [fVal, root, pow_two]

/-! ## Properties -/

/-- For squared masses that are not negative the numerical integrals are the thermal integrals up to an error of
10⁻⁹, for all masses and temperatures. -/
theorem C131_value (integ : (ℝ → ℝ) → ℝ → ℝ → ℝ) (hi : Exact integ) (x : ℝ) (hx : 0 ≤ x) :
    |bosonNumeric integ x 0 - jBoson x| ≤ 1e-9 ∧ |fermionNumeric integ x 0 - jFermion x| ≤ 1e-9 := by
  obtain ⟨h1, -, h3, -⟩ := numeric_eq integ hi hx
  rw [h1, h3, (spec_eq x).1, (spec_eq x).2]
  exact ⟨(cuts hx).1.2, (cuts hx).2.2.1.2⟩

theorem deriv_on {s : Set ℝ} (hs : MeasurableSet s) (hsub : s ⊆ Ioi 0) {x : ℝ} (hx : 0 < x) :
    HasDerivAt (fun y => ∫ k in s, bVal y k) (∫ k in s, bDer x k) x ∧
    HasDerivAt (fun y => ∫ k in s, fVal y k) (∫ k in s, fDer x k) x := by
  have hnb : Ioi (0 : ℝ) ∈ nhds x := isOpen_Ioi.mem_nhds hx
  have hb : IntegrableOn (fun k : ℝ => 8 * exp (-(1 / 4) * k)) s :=
    IntegrableOn.mono_set ((integrableOn_exp_mul_Ioi (a := -(1 / 4)) (by norm_num) 0).const_mul 8) hsub
  have hd : ∀ k y : ℝ, 0 < k → 0 < y → HasDerivAt (fun y => bVal y k) (bDer y k) y ∧
      HasDerivAt (fun y => fVal y k) (fDer y k) y := by
    intro k y hk hy
    have hp : 0 < k * k + y := by positivity
    obtain ⟨d1, d2, -, -⟩ := C63_integrands_positive y k hp
    obtain ⟨-, e2, -, e4⟩ := integrand_real hp
    rw [e2] at d1
    rw [e4] at d2
    have hev : ∀ᶠ z in nhds y, 0 < k * k + z := by
      filter_upwards [isOpen_Ioi.mem_nhds hy] with z hz
      have : (0 : ℝ) < z := hz
      positivity
    exact ⟨d1.congr_of_eventuallyEq (hev.mono fun z hz => (integrand_real hz).1.symm),
      d2.congr_of_eventuallyEq (hev.mono fun z hz => (integrand_real hz).2.2.1.symm)⟩
  constructor
  · refine (hasDerivAt_integral_of_dominated_loc_of_deriv_le (F := fun y k => bVal y k) (F' := fun y k => bDer y k)
      (bound := fun k => 8 * exp (-(1 / 4) * k)) hnb
      (Filter.Eventually.of_forall fun y => (meas y).1.aestronglyMeasurable) ((cuts hx.le).1.1.mono_set hsub)
      (meas x).2.1.aestronglyMeasurable ?_ hb ?_).2
    · exact (ae_restrict_iff' hs).2 (ae_of_all _ fun k hk y hy =>
        (bDer_le (le_of_lt hy) (hsub hk)).trans (bound1 (hsub hk)))
    · exact (ae_restrict_iff' hs).2 (ae_of_all _ fun k hk y hy => (hd k y (hsub hk) hy).1)
  · refine (hasDerivAt_integral_of_dominated_loc_of_deriv_le (F := fun y k => fVal y k) (F' := fun y k => fDer y k)
      (bound := fun k => 8 * exp (-(1 / 4) * k)) hnb
      (Filter.Eventually.of_forall fun y => (meas y).2.2.1.aestronglyMeasurable) ((cuts hx.le).2.2.1.1.mono_set hsub)
      (meas x).2.2.2.aestronglyMeasurable ?_ hb ?_).2
    · exact (ae_restrict_iff' hs).2 (ae_of_all _ fun k hk y hy =>
        (fDer_le (le_of_lt hy) (hsub hk)).trans (bound1 (hsub hk)))
    · exact (ae_restrict_iff' hs).2 (ae_of_all _ fun k hk y hy => (hd k y (hsub hk) hy).2)

/-- For positive squared masses the derivative mode is the derivative of the value mode. -/
theorem C131_derivative (integ : (ℝ → ℝ) → ℝ → ℝ → ℝ) (hi : Exact integ) (x : ℝ) (hx : 0 < x) :
    HasDerivAt (fun y => bosonNumeric integ y 0) (bosonNumeric integ x 1) x ∧
    HasDerivAt (fun y => fermionNumeric integ y 0) (fermionNumeric integ x 1) x := by
  obtain ⟨d1, d2⟩ := deriv_on measurableSet_Ioc sub30 hx
  obtain ⟨-, h2, -, h4⟩ := numeric_eq integ hi hx.le
  rw [h2, h4]
  have hev : ∀ᶠ z in nhds x, (0 : ℝ) ≤ z := by
    filter_upwards [isOpen_Ioi.mem_nhds hx] with z hz using le_of_lt hz
  exact ⟨d1.congr_of_eventuallyEq (hev.mono fun z hz => (numeric_eq integ hi hz).1),
    d2.congr_of_eventuallyEq (hev.mono fun z hz => (numeric_eq integ hi hz).2.2.1)⟩

/-- The thermal integrals are differentiable there, and the derivative mode gives their derivatives up to 10⁻⁹. -/
theorem C131_derivative_accuracy (integ : (ℝ → ℝ) → ℝ → ℝ → ℝ) (hi : Exact integ) (x : ℝ) (hx : 0 < x) :
    (∃ d, HasDerivAt jBoson d x ∧ |bosonNumeric integ x 1 - d| ≤ 1e-9) ∧
    ∃ d, HasDerivAt jFermion d x ∧ |fermionNumeric integ x 1 - d| ≤ 1e-9 := by
  obtain ⟨d1, d2⟩ := deriv_on measurableSet_Ioi (Subset.refl _) hx
  obtain ⟨-, h2, -, h4⟩ := numeric_eq integ hi hx.le
  rw [h2, h4, show jBoson = _ from funext fun y => (spec_eq y).1, show jFermion = _ from funext fun y => (spec_eq y).2]
  exact ⟨⟨_, d1, (cuts hx.le).2.1.2⟩, ⟨_, d2, (cuts hx.le).2.2.2.2⟩⟩

/-- Any other mode gives zero. -/
theorem C131_other_modes (integ : (ℝ → ℝ) → ℝ → ℝ → ℝ) (hi : Exact integ) (x : ℝ) (diff : Int) (h0 : diff ≠ 0)
    (h1 : diff ≠ 1) : bosonNumeric integ x diff = 0 ∧ fermionNumeric integ x diff = 0 := by
  have e : ∀ k, bosonIntegrand x k diff = 0 ∧ fermionIntegrand x k diff = 0 := fun k => by
    simp [bosonIntegrand, fermionIntegrand, h0, h1]
  unfold bosonNumeric fermionNumeric
  simp only [(e _).1, (e _).2]
  rw [hi _ 0 30 (by norm_num) (by simp)]
  simp

/-- The property fails for negative squared masses, for which the function is also meant: at minus 900 times the squared
temperature the part beyond 30, which is cut off, has one sign and a size of more than 4. -/
theorem C131_negative_fails :
    (∀ k : ℝ, 30 < k → bosonIntegrand (-900) k 0 < 0) ∧
    ∀ b : ℝ, 30.05 ≤ b → ∫ k in (30.01)..b, bosonIntegrand (-900) k 0 ≤ -4 := by
  have hpos : ∀ k : ℝ, 30 < k → 0 < k * k + -900 := fun k hk => by nlinarith
  have hneg : ∀ k : ℝ, 30 < k → bVal (-900) k < 0 := by
    intro k hk
    have hs : 0 < root (-900) k := sqrt_pos.2 (hpos k hk)
    have p := (small_arg hs).1
    have : log (1 - exp (-root (-900) k)) < 0 := log_neg p (by have := exp_pos (-root (-900) k); linarith)
    rw [bVal]
    have : 0 < k * k := by positivity
    nlinarith
  refine ⟨fun k hk => by rw [(integrand_real (hpos k hk)).1]; exact hneg k hk, fun b hb => ?_⟩
  have hab : (30.01 : ℝ) ≤ b := by linarith
  have hcont : ContinuousOn (bVal (-900)) (Icc 30.01 b) := by
    have hr : Continuous (root (-900)) := by unfold root; fun_prop
    unfold bVal
    refine ContinuousOn.mul (by fun_prop) (ContinuousOn.log (by fun_prop) fun k hk => ?_)
    have h30 : (30 : ℝ) < k := lt_of_lt_of_le (by norm_num) hk.1
    exact (small_arg (sqrt_pos.2 (hpos k h30))).1.ne'
  have hint : IntegrableOn (bVal (-900)) (Ioc 30.01 b) :=
    (hcont.integrableOn_Icc).mono_set Ioc_subset_Icc_self
  rw [intervalIntegral.integral_of_le hab, setIntegral_congr_fun measurableSet_Ioc
    (g := bVal (-900)) fun k hk => (integrand_real (hpos k (lt_trans (by norm_num) hk.1))).1]
  have hsub : Ioc (30.01 : ℝ) 30.05 ⊆ Ioc 30.01 b := Ioc_subset_Ioc_right hb
  have e : ∫ k in Ioc 30.01 b, bVal (-900) k = -∫ k in Ioc 30.01 b, -bVal (-900) k := by
    rw [integral_neg, neg_neg]
  have hmono : ∫ k in Ioc 30.01 30.05, -bVal (-900) k ≤ ∫ k in Ioc 30.01 b, -bVal (-900) k := by
    refine setIntegral_mono_set hint.neg ?_ (ae_of_all _ hsub)
    exact (ae_restrict_iff' measurableSet_Ioc).2 (ae_of_all _ fun k hk => by
      have := hneg k (lt_trans (by norm_num) hk.1)
      show (0 : ℝ) ≤ -bVal (-900) k
      linarith)
  have hlow : ∫ k in Ioc (30.01 : ℝ) 30.05, (110 : ℝ) ≤ ∫ k in Ioc 30.01 30.05, -bVal (-900) k := by
    refine setIntegral_mono_on (integrableOn_const (by simp)) (hint.mono_set hsub).neg measurableSet_Ioc fun k hk => ?_
    have h30 : (30 : ℝ) < k := lt_trans (by norm_num) hk.1
    have hk2 := hk.2
    have hs : 0 < root (-900) k := sqrt_pos.2 (hpos k h30)
    have hs2 : root (-900) k ≤ 2 := by
      unfold root
      rw [sqrt_le_left (by norm_num)]
      nlinarith
    have p := (small_arg hs).1
    have l := log_le_sub_one_of_pos p
    have x1 : exp (-2) ≤ exp (-root (-900) k) := exp_le_exp.2 (by linarith)
    have x2 : (0.125 : ℝ) ≤ exp (-2) := by
      have h1 : exp (-2) = (exp 1 ^ 2)⁻¹ := by rw [← exp_nat_mul, ← exp_neg]; norm_num
      have h2 : exp 1 ≤ 2.72 := by have := exp_one_lt_d9; linarith
      have h3 : exp 1 ^ 2 ≤ 8 := by have := exp_pos 1; nlinarith
      rw [h1]
      have := inv_anti₀ (by positivity) h3
      linarith
    have x3 : 0.125 ≤ -log (1 - exp (-root (-900) k)) := by linarith
    have x4 : 900 ≤ k * k := by nlinarith
    rw [bVal, neg_mul_eq_mul_neg]
    nlinarith
  rw [setIntegral_const, smul_eq_mul, Measure.real, Real.volume_Ioc, ENNReal.toReal_ofReal (by norm_num)] at hlow
  rw [e]
  have : (30.05 - 30.01 : ℝ) * 110 ≥ 4 := by norm_num
  linarith

/-- There is an exact integrator. -/
example : Exact fun f a b => ∫ x in Ioc a b, f x := fun _ _ _ _ _ => rfl

end Verif.Thermal
