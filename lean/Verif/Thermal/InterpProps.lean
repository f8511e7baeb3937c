import Mathlib.Analysis.Complex.RealDeriv
import Mathlib.Analysis.SpecialFunctions.ExpDeriv
import Verif.Thermal.Props

/-!
# The thermal functions used by the potential (C63)
-/

namespace Verif.Thermal

open Outcome Filter Topology

/-- Below the matching point the derivative mode for fermions is the derivative of the value. -/
theorem C63_fermion_interpolated (zeta : Nat → ℝ) (x : ℝ) (h0 : 0 < x) (h1 : x < fermionTheta) :
    HasDerivAt (fun x => fermionInterpolated zeta x 0) (fermionInterpolated zeta x 1) x := by
  have hev : (fun x => fermionInterpolated zeta x 0) =ᶠ[𝓝 x]
      fun y => -fermionLow zeta y 4 0 + -fermionShift := by
    filter_upwards [isOpen_Iio.mem_nhds h1] with y hy
    simp [fermionInterpolated, not_le.mpr (Set.mem_Iio.mp hy)]
  refine (HasDerivAt.congr_of_eventuallyEq ?_ hev)
  refine ((C63_fermion_low zeta 4 x h0).neg.add_const _).congr_deriv ?_
  simp [fermionInterpolated, not_le.mpr h1]

/-- The same for bosons with a positive squared mass, … -/
theorem C63_boson_interpolated (zeta : Nat → ℝ) (s : Spline) (x : ℝ) (h0 : 0 < x)
    (h1 : x < bosonTheta) :
    HasDerivAt (fun x => bosonInterpolated zeta s x 0) (bosonInterpolated zeta s x 1) x := by
  have hev : (fun x => bosonInterpolated zeta s x 0) =ᶠ[𝓝 x] fun y => bosonLow zeta y 3 0 := by
    filter_upwards [isOpen_Iio.mem_nhds h1, isOpen_Ioi.mem_nhds h0] with y hy hy0
    simp [bosonInterpolated, not_le.mpr (Set.mem_Iio.mp hy), (Set.mem_Ioi.mp hy0).le]
  refine (HasDerivAt.congr_of_eventuallyEq ?_ hev)
  refine (C63_boson_low zeta 3 x h0).congr_deriv ?_
  simp [bosonInterpolated, not_le.mpr h1, h0.le]

theorem bosonTheta_pos : (0 : ℝ) < bosonTheta := by unfold bosonTheta; norm_num

/-- … and with a negative one, when the spline knows its own derivative. -/
theorem C63_boson_negative (zeta : Nat → ℝ) (s : Spline) (x : ℝ) (h0 : x < 0)
    (hs : HasDerivAt s.value (s.deriv1 (-x)) (-x)) :
    HasDerivAt (fun x => bosonInterpolated zeta s x 0) (bosonInterpolated zeta s x 1) x := by
  have hlow : ∀ y : ℝ, y < 0 → ¬ bosonTheta ≤ y ∧ ¬ 0 ≤ y := fun y hy =>
    ⟨not_le.mpr (hy.trans bosonTheta_pos), not_le.mpr hy⟩
  have hev : (fun x => bosonInterpolated zeta s x 0) =ᶠ[𝓝 x]
      fun y => s.value (-y) + 3533375127 / 10 ^ 15 := by
    filter_upwards [isOpen_Iio.mem_nhds h0] with y hy
    have hy' : y < 0 := hy
    simp [bosonInterpolated, bosonNegative, hlow y hy', hy']
  refine (HasDerivAt.congr_of_eventuallyEq ?_ hev)
  have hc : HasDerivAt (fun y => s.value (-y)) (s.deriv1 (-x) * -1) x :=
    HasDerivAt.comp (h := fun y : ℝ => -y) x hs (hasDerivAt_id' x).neg
  refine (hc.add_const _).congr_deriv ?_
  simp [bosonInterpolated, bosonNegative, hlow x h0, h0]

/-- Above the matching point it never is, for bosons … -/
theorem C63_boson_high_fails (zeta : Nat → ℝ) (s : Spline) (x : ℝ) (hx : bosonTheta < x) :
    ¬ HasDerivAt (fun x => bosonInterpolated zeta s x 0) (bosonInterpolated zeta s x 1) x := by
  intro h
  have hev : (fun y => high y 3 0) =ᶠ[𝓝 x] fun y => bosonInterpolated zeta s y 0 + bosonShift := by
    filter_upwards [isOpen_Ioi.mem_nhds hx] with y hy
    simp [bosonInterpolated, (Set.mem_Ioi.mp hy).le]
  refine C63_high_fails x hx.le (HasDerivAt.congr_of_eventuallyEq ?_ hev)
  refine (h.add_const _).congr_deriv ?_
  simp [bosonInterpolated, hx.le]

/-- … and for fermions. -/
theorem C63_fermion_high_fails (zeta : Nat → ℝ) (x : ℝ) (hx : bosonTheta < x) :
    ¬ HasDerivAt (fun x => fermionInterpolated zeta x 0) (fermionInterpolated zeta x 1) x := by
  intro h
  have hft : ∀ y, bosonTheta < y → fermionTheta ≤ y := by
    intro y hy
    refine le_trans ?_ hy.le
    unfold fermionTheta bosonTheta
    norm_num
  have hev : (fun y => high y 3 0) =ᶠ[𝓝 x] fun y => -fermionInterpolated zeta y 0 := by
    filter_upwards [isOpen_Ioi.mem_nhds hx] with y hy
    simp [fermionInterpolated, hft y hy]
  refine C63_high_fails x hx.le (HasDerivAt.congr_of_eventuallyEq ?_ hev)
  refine h.neg.congr_deriv ?_
  simp [fermionInterpolated, hft x hx]

/-- The value for bosons jumps at zero: with a spline that is continuous and starts at the tabulated
value, the limit from below is larger than the value at zero by about 3.5e-6. -/
theorem C63_boson_jump (zeta : Nat → ℝ) (s : Spline)
    (hs : ContinuousWithinAt s.value (Set.Ioi 0) 0) (h0 : s.value 0 = -2164646465 / 10 ^ 9) :
    ∃ L, Tendsto (fun x => bosonInterpolated zeta s x 0) (𝓝[<] 0) (𝓝 L) ∧
      3 / 10 ^ 6 < L - bosonInterpolated zeta s 0 0 ∧
      L - bosonInterpolated zeta s 0 0 < 4 / 10 ^ 6 := by
  refine ⟨-2164646465 / 10 ^ 9 + 3533375127 / 10 ^ 15, ?_, ?_⟩
  · have hneg : Tendsto (fun x : ℝ => -x) (𝓝[<] 0) (𝓝[>] 0) := by
      have := tendsto_neg_nhdsLT (a := (0 : ℝ))
      simpa using this
    have h1 : Tendsto (fun x => s.value (-x)) (𝓝[<] 0) (𝓝 (-2164646465 / 10 ^ 9)) := by
      have := hs.tendsto.comp hneg
      rwa [h0] at this
    refine (h1.add_const _).congr' ?_
    filter_upwards [self_mem_nhdsWithin] with y hy
    have hy' : y < 0 := hy
    simp [bosonInterpolated, bosonNegative, hy', not_le.mpr (hy'.trans bosonTheta_pos),
      not_le.mpr hy']
  · have hv : bosonInterpolated zeta s 0 0 = -Real.pi ^ 4 / 45 := by
      simp [bosonInterpolated, bosonLow, not_le.mpr bosonTheta_pos]
    rw [hv]
    have p1 := Real.pi_gt_d20
    have p2 := Real.pi_lt_d20
    have q1 : (3.14159265358 : ℝ) ^ 4 < Real.pi ^ 4 := by
      gcongr
      linarith
    have q2 : Real.pi ^ 4 < (3.14159265359 : ℝ) ^ 4 := by
      gcongr
      linarith
    norm_num at q1 q2 ⊢
    constructor <;> linarith

/-- For NaN the boson function returns 0, the fermion function NaN. -/
theorem C63_nan (zeta : Nat → ℝ) (s : Spline) (diff : Int) :
    bosonInterpolatedFlt zeta s .nan diff = .fin 0 ∧ fermionInterpolatedFlt zeta .nan 0 = .nan :=
  ⟨rfl, by simp [fermionInterpolatedFlt]⟩

/-- Any other mode than 0 and 1 returns 0. -/
theorem C63_other_modes (zeta : Nat → ℝ) (s : Spline) (x k : ℝ) (diff : Int) (h0 : diff ≠ 0)
    (h1 : diff ≠ 1) : bosonInterpolated zeta s x diff = 0 ∧ fermionInterpolated zeta x diff = 0 ∧
      bosonIntegrand x k diff = 0 ∧ fermionIntegrand x k diff = 0 := by
  refine ⟨?_, ?_, ?_, ?_⟩
  · simp [bosonInterpolated, bosonLow, bosonNegative, high, h0, h1]
  · simp [fermionInterpolated, fermionLow, high, h0, h1]
  · simp [bosonIntegrand, h0, h1]
  · simp [fermionIntegrand, h0, h1]

/-! ### Integrands -/

theorem hasDerivAt_csqrt {r : ℝ} (hr : r ≠ 0) : HasDerivAt csqrt (1 / (2 * csqrt r)) r := by
  rcases lt_or_gt_of_ne hr with h | h
  · have hev : csqrt =ᶠ[𝓝 r] fun y => Complex.I * ((√(-y) : ℝ) : ℂ) := by
      filter_upwards [isOpen_Iio.mem_nhds h] with y hy
      simp [csqrt, not_le.mpr (Set.mem_Iio.mp hy)]
    refine HasDerivAt.congr_of_eventuallyEq ?_ hev
    have h1 : HasDerivAt (fun y : ℝ => √(-y)) (1 / (2 * √(-r)) * -1) r :=
      HasDerivAt.comp (h := fun y : ℝ => -y) r
        (Real.hasDerivAt_sqrt (x := -r) (neg_ne_zero.mpr hr)) (hasDerivAt_id' r).neg
    have h2 := (h1.ofReal_comp).const_mul Complex.I
    refine h2.congr_deriv ?_
    have hs : (√(-r) : ℝ) ≠ 0 := (Real.sqrt_pos.mpr (by linarith)).ne'
    have hs' : ((√(-r) : ℝ) : ℂ) ≠ 0 := by exact_mod_cast hs
    simp only [csqrt, not_le.mpr h, if_false]
    push_cast
    field_simp
    rw [Complex.I_sq]
    norm_num
  · have hev : csqrt =ᶠ[𝓝 r] fun y => ((√y : ℝ) : ℂ) := by
      filter_upwards [isOpen_Ioi.mem_nhds h] with y hy
      simp [csqrt, (Set.mem_Ioi.mp hy).le]
    refine HasDerivAt.congr_of_eventuallyEq ?_ hev
    refine (Real.hasDerivAt_sqrt hr).ofReal_comp.congr_deriv ?_
    simp only [csqrt, h.le, if_true]
    push_cast
    rfl

theorem csqrt_ne_zero {r : ℝ} (hr : r ≠ 0) : csqrt r ≠ 0 := by
  rcases lt_or_gt_of_ne hr with h | h
  · have : (√(-r) : ℝ) ≠ 0 := (Real.sqrt_pos.mpr (by linarith)).ne'
    simpa [csqrt, not_le.mpr h] using this
  · have : (√r : ℝ) ≠ 0 := (Real.sqrt_pos.mpr h).ne'
    simpa [csqrt, h.le] using this

theorem norm_exp_csqrt_le (r : ℝ) : ‖Complex.exp (-csqrt r)‖ ≤ 1 := by
  rw [Complex.norm_exp]
  by_cases h : 0 ≤ r
  · simp [csqrt, h]
  · simp [csqrt, h]

theorem slit_of_norm {z : ℂ} (hz : ‖z‖ ≤ 1) (hne : 1 + z ≠ 0) : 1 + z ∈ Complex.slitPlane := by
  rw [Complex.mem_slitPlane_iff]
  by_cases him : (1 + z).im = 0
  · left
    have hre := Complex.abs_re_le_norm z
    have h1 : 0 ≤ (1 + z).re := by
      have := (abs_le.mp (hre.trans hz)).1
      simp only [Complex.add_re, Complex.one_re]
      linarith
    rcases h1.lt_or_eq with h | h
    · exact h
    · exact absurd (Complex.ext h.symm him) (by simpa using hne)
  · exact Or.inr him

theorem hasDerivAt_exp_csqrt (x k : ℝ) (hr : k * k + x ≠ 0) :
    HasDerivAt (fun x => Complex.exp (-csqrt (k * k + x)))
      (Complex.exp (-csqrt (k * k + x)) * -(1 / (2 * csqrt (k * k + x)))) x := by
  have h1 : HasDerivAt (fun x : ℝ => csqrt (k * k + x)) (1 / (2 * csqrt (k * k + x))) x := by
    have := HasDerivAt.scomp (h := fun x : ℝ => k * k + x) x (hasDerivAt_csqrt hr)
      ((hasDerivAt_id' x).const_add (k * k))
    simpa [Function.comp_def] using this
  exact h1.neg.cexp

/-- The derivative mode of the integrand for bosons is the derivative of the integrand, for positive and
negative squared masses, wherever neither the root nor the argument of the logarithm vanishes. -/
theorem C63_boson_integrand (x k : ℝ) (hr : k * k + x ≠ 0)
    (hl : Complex.exp (-csqrt (k * k + x)) ≠ 1) :
    HasDerivAt (fun x => bosonIntegrand x k 0) (bosonIntegrand x k 1) x := by
  have he := hasDerivAt_exp_csqrt x k hr
  have hne : 1 + -Complex.exp (-csqrt (k * k + x)) ≠ 0 := by
    intro h
    exact hl (by linear_combination -h)
  have hslit := slit_of_norm (z := -Complex.exp (-csqrt (k * k + x)))
    (by rw [norm_neg]; exact norm_exp_csqrt_le _) hne
  rw [← sub_eq_add_neg] at hslit hne
  have hlog := (he.const_sub 1).clog_real hslit
  have hz := hlog.const_mul ((k : ℂ) * k)
  have hre := Complex.reCLM.hasFDerivAt.comp_hasDerivAt x hz
  have hfun : (fun x => bosonIntegrand x k 0) = (Complex.reCLM ∘ fun x : ℝ =>
      (k : ℂ) * k * Complex.log (1 - Complex.exp (-csqrt (k * k + x)))) := by
    funext y
    simp [bosonIntegrand]
  rw [hfun]
  refine hre.congr_deriv ?_
  have ht := csqrt_ne_zero hr
  simp only [bosonIntegrand, one_ne_zero, if_false, if_true, Complex.reCLM_apply]
  congr 1
  field_simp

/-- The same for fermions. -/
theorem C63_fermion_integrand (x k : ℝ) (hr : k * k + x ≠ 0)
    (hl : Complex.exp (-csqrt (k * k + x)) ≠ -1) :
    HasDerivAt (fun x => fermionIntegrand x k 0) (fermionIntegrand x k 1) x := by
  have he := hasDerivAt_exp_csqrt x k hr
  have hne : 1 + Complex.exp (-csqrt (k * k + x)) ≠ 0 := by
    intro h
    exact hl (by linear_combination h)
  have hslit := slit_of_norm (z := Complex.exp (-csqrt (k * k + x))) (norm_exp_csqrt_le _) hne
  have hlog := (he.const_add 1).clog_real hslit
  have hz := hlog.const_mul ((k : ℂ) * k)
  have hre := Complex.reCLM.hasFDerivAt.comp_hasDerivAt x hz
  have hfun : (fun x => fermionIntegrand x k 0) = (Complex.reCLM ∘ fun x : ℝ =>
      (k : ℂ) * k * Complex.log (1 + Complex.exp (-csqrt (k * k + x)))) := by
    funext y
    simp [fermionIntegrand]
  rw [hfun]
  refine hre.congr_deriv ?_
  have ht := csqrt_ne_zero hr
  simp only [fermionIntegrand, one_ne_zero, if_false, if_true, Complex.reCLM_apply]
  congr 1
  field_simp

/-- For a positive squared mass (or momentum above it) the conditions are met. -/
theorem C63_integrands_positive (x k : ℝ) (h : 0 < k * k + x) :
    HasDerivAt (fun x => bosonIntegrand x k 0) (bosonIntegrand x k 1) x ∧
      HasDerivAt (fun x => fermionIntegrand x k 0) (fermionIntegrand x k 1) x ∧
      bosonIntegrand x k 0 = k * k * Real.log (1 - Real.exp (-√(k * k + x))) ∧
      fermionIntegrand x k 0 = k * k * Real.log (1 + Real.exp (-√(k * k + x))) := by
  have hs : 0 < √(k * k + x) := Real.sqrt_pos.mpr h
  have he : Complex.exp (-csqrt (k * k + x)) = ((Real.exp (-√(k * k + x)) : ℝ) : ℂ) := by
    simp [csqrt, h.le]
  have hlt : Real.exp (-√(k * k + x)) < 1 := by
    rw [← Real.exp_zero]
    exact Real.exp_lt_exp.mpr (by linarith)
  have hpos := Real.exp_pos (-√(k * k + x))
  refine ⟨C63_boson_integrand x k h.ne' ?_, C63_fermion_integrand x k h.ne' ?_, ?_, ?_⟩
  · rw [he]
    exact_mod_cast hlt.ne
  · rw [he]
    intro hc
    have : Real.exp (-√(k * k + x)) = -1 := by exact_mod_cast hc
    linarith
  · simp only [bosonIntegrand, if_true, he]
    have e : (1 : ℂ) - ((Real.exp (-√(k * k + x)) : ℝ) : ℂ) =
        ((1 - Real.exp (-√(k * k + x)) : ℝ) : ℂ) := by push_cast; rfl
    rw [e, ← Complex.ofReal_log (by linarith)]
    norm_cast
  · simp only [fermionIntegrand, if_true, he]
    have e : (1 : ℂ) + ((Real.exp (-√(k * k + x)) : ℝ) : ℂ) =
        ((1 + Real.exp (-√(k * k + x)) : ℝ) : ℂ) := by push_cast; rfl
    rw [e, ← Complex.ofReal_log (by linarith)]
    norm_cast

example : (0 : ℝ) < 1 * 1 + 3 := by norm_num

end Verif.Thermal
