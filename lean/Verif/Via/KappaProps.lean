import Verif.Via.Kappa
import Verif.Kfactors.Series
import Mathlib.Analysis.SpecialFunctions.ImproperIntegrals
import Mathlib.MeasureTheory.Integral.IntervalIntegral.FundThmCalculus
import Mathlib.Analysis.Calculus.Deriv.Inv
import Mathlib.Analysis.Real.Pi.Bounds
import Mathlib.Tactic.Positivity
import Mathlib.Tactic.NormNum
import Mathlib.Tactic.Linarith

/-!
# The statistical factors of the transport equations (C130)
-/

set_option linter.unusedVariables false

namespace Verif.Via

open Outcome Real MeasureTheory

/-! ## Specification -/

namespace Spec

/-- The Fermi-Dirac distribution of the energy in units of the temperature. -/
noncomputable def fermi (x : ℝ) : ℝ := 1 / (exp x + 1)

/-- The statistical factor of a fermion whose mass is `a` times the temperature, relative to that of a massless
one: `6/π² ∫ x √(x² - a²) (- n'(x)) dx` over all energies. -/
noncomputable def kappa (a : ℝ) : ℝ := 6 / π ^ 2 * ∫ x in Set.Ioi a, x * √(x ^ 2 - a ^ 2) * -deriv fermi x

/-- An exact integrator: for functions that are continuous on the range it gives the integral. -/
def Exact (integ : (ℝ → Flt ℝ) → ℝ → ℝ → Flt ℝ) : Prop :=
  ∀ (f : ℝ → Flt ℝ) (g : ℝ → ℝ) (a b : ℝ), a ≤ b → (∀ x ∈ Set.Icc a b, f x = .fin (g x)) →
    ContinuousOn g (Set.Icc a b) → integ f a b = .fin (∫ x in a..b, g x)

end Spec

open Spec

/-! ## Lemmas -/

theorem deriv_fermi (x : ℝ) : deriv fermi x = -(exp x / (exp x + 1) ^ 2) := by
  have h0 : exp x + 1 ≠ 0 := by positivity
  have h := ((Real.hasDerivAt_exp x).add_const 1).inv h0
  have e : fermi = fun y => (exp y + 1)⁻¹ := funext fun y => by rw [fermi, one_div]
  rw [e]
  exact h.deriv.trans (neg_div _ _)

/-- The integrand without the prefactor. -/
noncomputable def core (a x : ℝ) : ℝ := x * exp x * √(x * x - a ^ 2) / (exp x + 1) ^ 2

theorem core_continuous (a : ℝ) : Continuous (core a) := by
  unfold core
  refine Continuous.div (by fun_prop) (by fun_prop) fun x => ?_
  positivity

theorem core_nonneg {a x : ℝ} (hx : 0 ≤ x) : 0 ≤ core a x := by unfold core; positivity

theorem core_anti {a b x : ℝ} (ha : 0 ≤ a) (hab : a ≤ b) (hx : 0 ≤ x) : core b x ≤ core a x := by
  unfold core
  have : √(x * x - b ^ 2) ≤ √(x * x - a ^ 2) := sqrt_le_sqrt (by nlinarith)
  gcongr

theorem core_zero {x : ℝ} (hx : 0 ≤ x) : core 0 x = x ^ 2 * (exp x / (exp x + 1) ^ 2) := by
  unfold core
  rw [show x * x - 0 ^ 2 = x * x by ring, sqrt_mul_self hx]
  ring

theorem core_le {a x : ℝ} (ha : 0 ≤ a) (hx : 0 ≤ x) : core a x ≤ x ^ 2 * (exp x / (exp x + 1) ^ 2) :=
  (core_anti (le_refl 0) ha hx).trans (core_zero hx).le

theorem fermi_le (x : ℝ) : exp x / (exp x + 1) ^ 2 ≤ exp (-x) := by
  have := exp_pos x
  rw [exp_neg, div_le_iff₀ (by positivity), inv_mul_eq_div, le_div_iff₀ this]
  nlinarith

theorem sq_le_exp {x : ℝ} (hx : 0 ≤ x) : x ^ 2 ≤ 2 * exp x := by
  have := quadratic_le_exp_of_nonneg hx
  linarith

theorem core_le_two {a x : ℝ} (ha : 0 ≤ a) (hx : 0 ≤ x) : core a x ≤ 2 := by
  refine (core_le ha hx).trans ((mul_le_mul_of_nonneg_left (fermi_le x) (sq_nonneg x)).trans ?_)
  have := mul_le_mul_of_nonneg_right (sq_le_exp hx) (exp_pos (-x)).le
  rw [mul_assoc, ← exp_add, add_neg_cancel, exp_zero, mul_one] at this
  exact this

theorem core_le_exp {a x : ℝ} (ha : 0 ≤ a) (hx : 0 ≤ x) : core a x ≤ 8 * exp (-(1 / 2) * x) := by
  refine (core_le ha hx).trans ((mul_le_mul_of_nonneg_left (fermi_le x) (sq_nonneg x)).trans ?_)
  have h := sq_le_exp (show (0 : ℝ) ≤ x / 2 by positivity)
  have h2 : x ^ 2 ≤ 8 * exp (x / 2) := by nlinarith
  have := mul_le_mul_of_nonneg_right h2 (exp_pos (-x)).le
  rw [mul_assoc, ← exp_add, show x / 2 + -x = -(1 / 2) * x by ring] at this
  exact this

theorem core_integrable {a : ℝ} (ha : 0 ≤ a) : IntegrableOn (core a) (Set.Ioi 0) := by
  refine Integrable.mono' Kfactors.integrable_fermi (core_continuous a).aestronglyMeasurable ?_
  refine (ae_restrict_iff' measurableSet_Ioi).2 (ae_of_all _ fun x hx => ?_)
  rw [norm_of_nonneg (core_nonneg (le_of_lt hx))]
  exact core_le ha (le_of_lt hx)

theorem integrable_sub {a : ℝ} (ha : 0 ≤ a) {s : Set ℝ} (h : s ⊆ Set.Ioi 0) : IntegrableOn (core a) s :=
  (core_integrable ha).mono_set h

theorem kappa_eq {a : ℝ} (ha : 0 ≤ a) : Spec.kappa a = 6 / π ^ 2 * ∫ x in Set.Ioi a, core a x := by
  unfold Spec.kappa
  congr 1
  refine setIntegral_congr_fun measurableSet_Ioi fun x _ => ?_
  rw [deriv_fermi, neg_neg, core, show x * x = x ^ 2 by ring]
  ring

theorem integral_nonneg_of {a : ℝ} {s : Set ℝ} (hs : MeasurableSet s) (h : s ⊆ Set.Ioi 0) :
    0 ≤ ∫ x in s, core a x := setIntegral_nonneg hs fun x hx => core_nonneg (le_of_lt (h hx))

theorem integral_le_of {a : ℝ} (ha : 0 ≤ a) {s t : Set ℝ} (hst : s ⊆ t) (hm : MeasurableSet t) (h : t ⊆ Set.Ioi 0) :
    ∫ x in s, core a x ≤ ∫ x in t, core a x := by
  refine setIntegral_mono_set (integrable_sub ha h) ?_ (ae_of_all _ hst)
  exact (ae_restrict_iff' hm).2 (ae_of_all _ fun x hx => core_nonneg (le_of_lt (h hx)))

theorem integral_anti {a b : ℝ} (ha : 0 ≤ a) (hab : a ≤ b) {s : Set ℝ} (hm : MeasurableSet s) (h : s ⊆ Set.Ioi 0) :
    ∫ x in s, core b x ≤ ∫ x in s, core a x :=
  setIntegral_mono_on (integrable_sub (ha.trans hab) h) (integrable_sub ha h) hm
    fun x hx => core_anti ha hab (le_of_lt (h hx))

/-- What the program computes with an exact integrator. -/
theorem integrateKappa_eq (integ : (ℝ → Flt ℝ) → ℝ → ℝ → Flt ℝ) (hi : Exact integ) (temp mt : ℝ)
    (h0 : 0 ≤ mt / temp) (h1 : mt / temp + 1e-5 ≤ 300) :
    integrateKappa integ temp mt =
      .fin (6 / π ^ 2 * ∫ x in Set.Ioc (mt / temp + 1e-5) 300, core (mt / temp) x) := by
  unfold integrateKappa
  have e : (3 * 1e2 : ℝ) = 300 := by norm_num
  rw [e, hi _ (fun x => 6 / (π * π) * core (mt / temp) x) _ _ h1]
  · rw [intervalIntegral.integral_of_le h1, integral_const_mul, show π * π = π ^ 2 by ring]
  · intro x hx
    rw [kappaIntegrand, if_neg, core]
    have := hx.1
    rw [not_lt]
    have h2 : mt / temp ≤ x := by linarith [show (0 : ℝ) ≤ 1e-5 by norm_num]
    nlinarith
  · exact ((core_continuous _).const_mul _).continuousOn

/-! ## Properties -/

/-- A massless fermion has the factor one, and the factor decreases with the mass but stays positive. -/
theorem C130_normalised : Spec.kappa 0 = 1 ∧
    (∀ a b : ℝ, 0 ≤ a → a ≤ b → Spec.kappa b ≤ Spec.kappa a) ∧ ∀ a : ℝ, 0 ≤ a → 0 ≤ Spec.kappa a := by
  refine ⟨?_, fun a b ha hab => ?_, fun a ha => ?_⟩
  · rw [kappa_eq (le_refl 0), setIntegral_congr_fun measurableSet_Ioi
      (g := fun x => x ^ 2 * (exp x / (exp x + 1) ^ 2)) fun x hx => core_zero (le_of_lt hx), Kfactors.integral_fermi]
    have := pi_pos
    field_simp
  · rw [kappa_eq ha, kappa_eq (ha.trans hab)]
    refine mul_le_mul_of_nonneg_left ?_ (by positivity)
    refine (integral_anti ha hab measurableSet_Ioi (Set.Ioi_subset_Ioi (ha.trans hab))).trans ?_
    exact integral_le_of ha (Set.Ioi_subset_Ioi hab) measurableSet_Ioi (Set.Ioi_subset_Ioi ha)
  · rw [kappa_eq ha]
    exact mul_nonneg (by positivity) (integral_nonneg_of measurableSet_Ioi (Set.Ioi_subset_Ioi ha))

theorem pow_tail : 8 * (2 * exp (-(1 / 2) * 300)) ≤ (1e-6 : ℝ) := by
  have h1 : exp (-(1 / 2) * 300) = (exp 1 ^ 150)⁻¹ := by
    rw [← exp_nat_mul, ← exp_neg]; norm_num
  have h2 : (2 : ℝ) ≤ exp 1 := by have := add_one_le_exp (1 : ℝ); linarith
  have h3 : (2 : ℝ) ^ 150 ≤ exp 1 ^ 150 := by gcongr
  have h4 : (exp 1 ^ 150)⁻¹ ≤ ((2 : ℝ) ^ 150)⁻¹ := inv_anti₀ (by positivity) h3
  have h5 : 8 * (2 * ((2 : ℝ) ^ 150)⁻¹) ≤ 1e-6 := by norm_num
  rw [h1]
  linarith

theorem tail_le {a : ℝ} (ha : 0 ≤ a) : ∫ x in Set.Ioi (300 : ℝ), core a x ≤ 1e-6 := by
  have hneg : (-(1 / 2) : ℝ) < 0 := by norm_num
  have h : ∫ x in Set.Ioi (300 : ℝ), core a x ≤ ∫ x in Set.Ioi (300 : ℝ), 8 * exp (-(1 / 2) * x) :=
    setIntegral_mono_on (integrable_sub ha (Set.Ioi_subset_Ioi (by norm_num)))
      ((integrableOn_exp_mul_Ioi hneg 300).const_mul 8) measurableSet_Ioi
      fun x hx => core_le_exp ha (le_of_lt (lt_trans (by norm_num) hx))
  rw [integral_const_mul, integral_exp_mul_Ioi hneg] at h
  refine h.trans (le_trans (le_of_eq ?_) pow_tail)
  ring

theorem head_le {a : ℝ} (ha : 0 ≤ a) : ∫ x in Set.Ioc a (a + 1e-5), core a x ≤ 2e-5 := by
  have h : ∫ x in Set.Ioc a (a + 1e-5), core a x ≤ ∫ x in Set.Ioc a (a + 1e-5), (2 : ℝ) :=
    setIntegral_mono_on (integrable_sub ha fun x hx => lt_of_le_of_lt ha hx.1)
      (integrableOn_const (by simp)) measurableSet_Ioc
      fun x hx => core_le_two ha (le_of_lt (lt_of_le_of_lt ha hx.1))
  refine h.trans ?_
  rw [setIntegral_const]
  simp only [smul_eq_mul]
  rw [Measure.real, Real.volume_Ioc, ENNReal.toReal_ofReal (by norm_num)]
  norm_num

/-- The factor that is computed is that of the specification up to 0.00002, from below; the cuts at both ends of the range
cost no more than this. -/
theorem C130_accuracy (integ : (ℝ → Flt ℝ) → ℝ → ℝ → Flt ℝ) (hi : Exact integ) (temp mt : ℝ)
    (ht : 0 < temp) (hm : 0 ≤ mt) (h1 : mt / temp ≤ 299) :
    ∃ k, integrateKappa integ temp mt = .fin k ∧ k ≤ Spec.kappa (mt / temp) ∧
      Spec.kappa (mt / temp) - k ≤ 2e-5 := by
  have h0 : 0 ≤ mt / temp := by positivity
  have h2 : mt / temp + 1e-5 ≤ 300 := by
    have : (1e-5 : ℝ) ≤ 1 := by norm_num
    linarith
  refine ⟨_, integrateKappa_eq integ hi temp mt h0 h2, ?_, ?_⟩
  · rw [kappa_eq h0]
    refine mul_le_mul_of_nonneg_left ?_ (by positivity)
    refine integral_le_of h0 (fun x hx => ?_) measurableSet_Ioi (Set.Ioi_subset_Ioi h0)
    have := hx.1
    exact lt_trans (by norm_num) this
  · rw [kappa_eq h0]
    generalize mt / temp = a at *
    have e1 : Set.Ioi a = Set.Ioc a (a + 1e-5) ∪ Set.Ioi (a + 1e-5) :=
      (Set.Ioc_union_Ioi_eq_Ioi (by norm_num)).symm
    have e2 : Set.Ioi (a + 1e-5) = Set.Ioc (a + 1e-5) 300 ∪ Set.Ioi 300 := (Set.Ioc_union_Ioi_eq_Ioi h2).symm
    have p : (0 : ℝ) ≤ a + 1e-5 := by have : (0 : ℝ) ≤ 1e-5 := by norm_num
                                      linarith
    have s1 : Set.Ioc a (a + 1e-5) ⊆ Set.Ioi 0 := fun x hx => lt_of_le_of_lt h0 hx.1
    have s2 : Set.Ioc (a + 1e-5) 300 ⊆ Set.Ioi 0 := fun x hx => lt_of_le_of_lt p hx.1
    have s3 : Set.Ioi (300 : ℝ) ⊆ Set.Ioi 0 := Set.Ioi_subset_Ioi (by norm_num)
    have s4 : Set.Ioi (a + 1e-5) ⊆ Set.Ioi 0 := Set.Ioi_subset_Ioi p
    rw [e1, setIntegral_union (Set.Ioc_disjoint_Ioi (le_refl _)) measurableSet_Ioi (integrable_sub h0 s1)
      (integrable_sub h0 s4), e2, setIntegral_union (Set.Ioc_disjoint_Ioi (le_refl _)) measurableSet_Ioi
      (integrable_sub h0 s2) (integrable_sub h0 s3)]
    have t1 := head_le h0
    have t2 := tail_le h0
    have hpi : 6 / π ^ 2 ≤ 2 / 3 := by
      have := pi_gt_three
      rw [div_le_div_iff₀ (by positivity) (by norm_num)]
      nlinarith
    have n1 := integral_nonneg_of (a := a) measurableSet_Ioc s1
    have n3 := integral_nonneg_of (a := a) measurableSet_Ioi s3
    have e : ∀ u v w c : ℝ, c * (u + (v + w)) - c * v = c * (u + w) := fun u v w c => by ring
    rw [e]
    refine (mul_le_mul hpi (add_le_add t1 t2) (add_nonneg n1 n3) (by norm_num)).trans ?_
    norm_num

/-- The factor that is computed is never larger than one, always positive, so that one can divide by it, and
decreases with the mass. -/
theorem C130_range (integ : (ℝ → Flt ℝ) → ℝ → ℝ → Flt ℝ) (hi : Exact integ) (temp m₁ m₂ : ℝ)
    (ht : 0 < temp) (h0 : 0 ≤ m₁) (h12 : m₁ ≤ m₂) (h2 : m₂ / temp ≤ 299) :
    ∃ k₁ k₂, integrateKappa integ temp m₁ = .fin k₁ ∧ integrateKappa integ temp m₂ = .fin k₂ ∧
      0 < k₂ ∧ k₂ ≤ k₁ ∧ k₁ ≤ 1 := by
  have hq : m₁ / temp ≤ m₂ / temp := by gcongr
  have a1 : 0 ≤ m₁ / temp := by positivity
  have a2 : 0 ≤ m₂ / temp := a1.trans hq
  have eps : (1e-5 : ℝ) ≤ 1 := by norm_num
  have eps0 : (0 : ℝ) ≤ 1e-5 := by norm_num
  obtain ⟨k, hk, hle, -⟩ := C130_accuracy integ hi temp m₁ ht h0 (hq.trans h2)
  have e1 := integrateKappa_eq integ hi temp m₁ a1 (by linarith)
  have e2 := integrateKappa_eq integ hi temp m₂ a2 (by linarith)
  have hk' := e1
  rw [hk] at hk'
  have hk'' := Flt.fin.inj hk'
  have s1 : Set.Ioc (m₁ / temp + 1e-5) 300 ⊆ Set.Ioi 0 := fun x hx => lt_of_le_of_lt (by linarith) hx.1
  have s2 : Set.Ioc (m₂ / temp + 1e-5) 300 ⊆ Set.Ioi 0 := fun x hx => lt_of_le_of_lt (by linarith) hx.1
  refine ⟨_, _, e1, e2, mul_pos (by positivity) ?_, ?_, ?_⟩
  · have hlt : m₂ / temp + 1e-5 < 300 := by
      have : (1e-5 : ℝ) < 1 := by norm_num
      linarith
    rw [← intervalIntegral.integral_of_le hlt.le]
    refine intervalIntegral.intervalIntegral_pos_of_pos_on ((core_continuous _).intervalIntegrable _ _) ?_ hlt
    intro x hx
    have hx1 := hx.1
    have hx0 : m₂ / temp < x := lt_of_le_of_lt (by linarith) hx1
    have hx2 : 0 < x := lt_of_le_of_lt a2 hx0
    have : 0 < √(x * x - (m₂ / temp) ^ 2) := sqrt_pos.2 (by nlinarith)
    unfold core
    positivity
  · refine mul_le_mul_of_nonneg_left ?_ (by positivity)
    refine (integral_anti a1 hq measurableSet_Ioc s2).trans
      (integral_le_of a1 (fun x hx => ⟨lt_of_le_of_lt (by linarith) hx.1, hx.2⟩) measurableSet_Ioc s1)
  · rw [← hk'']
    refine hle.trans ?_
    rw [← C130_normalised.1]
    exact C130_normalised.2.1 0 _ (le_refl 0) a1

/-- The property fails for particles that are more than 300 times as heavy as the temperature: the range of integration is then turned around, and its end is a point at which the
integrand is not a number. -/
theorem C130_heavy_fails (temp mt : ℝ) (h : 300 < mt / temp) : kappaIntegrand temp mt (3 * 1e2) = .nan := by
  rw [kappaIntegrand, if_pos]
  nlinarith

/-- Rates and sources are integrals over momenta from 0 to 10000, and a result that is not a number is an exception. -/
theorem C130_momenta (integ : (ℝ → Flt ℝ) → ℝ → ℝ → Flt ℝ) (f : ℝ → Flt ℝ) :
    (∀ x, integ f 0 10000 = .fin x → integrateMomenta integ f = ok x) ∧
    (integ f 0 10000 = .nan → integrateMomenta integ f = err .runtime) := by
  have e : (1e4 : ℝ) = 10000 := by norm_num
  unfold integrateMomenta
  rw [e]
  exact ⟨fun x h => by rw [h], fun h => by rw [h]⟩

open Classical in
/-- There is an exact integrator. -/
example : ∃ integ, Exact integ := by
  refine ⟨fun f a b => .fin (∫ x in a..b, (match f x with | .fin y => y | .nan => 0)), fun f g a b hab hf _ => ?_⟩
  have : ∫ x in a..b, (match f x with | .fin y => y | .nan => (0 : ℝ)) = ∫ x in a..b, g x := by
    refine intervalIntegral.integral_congr fun x hx => ?_
    rw [Set.uIcc_of_le hab] at hx
    simp only [hf x hx]
  simp only [this]

/-- The top quark at 100 GeV. -/
example : (0 : ℝ) < 100 ∧ (0 : ℝ) ≤ 172 ∧ (172 / 100 : ℝ) ≤ 299 := by norm_num

end Verif.Via
