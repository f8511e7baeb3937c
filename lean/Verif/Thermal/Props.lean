import Mathlib.Analysis.SpecialFunctions.Pow.Deriv
import Mathlib.Analysis.SpecialFunctions.Log.Deriv
import Mathlib.Analysis.SpecialFunctions.Log.NegMulLog
import Mathlib.Analysis.SpecialFunctions.Complex.LogDeriv
import Mathlib.Analysis.SpecialFunctions.Sqrt
import Mathlib.Analysis.Real.Pi.Bounds
import Mathlib.Analysis.SpecialFunctions.Gamma.Beta
import Mathlib.Tactic.Ring
import Mathlib.Tactic.FieldSimp
import Mathlib.Tactic.LinearCombination
import Verif.Thermal.Model

/-!
# Derivative modes of the thermal functions (C63)
-/

namespace Verif.Thermal

open Outcome Filter Topology

/-! ### Stored coefficients -/

/-- For every order that is not negative the calculator returns what the function returns, whether
the value was stored or not. -/
theorem C63_coefficient {α : Type} (func : Int → α) (maxOrder n : Int) (hn : 0 ≤ n) :
    getCoefficient func maxOrder n = .ok (func n) := by
  unfold getCoefficient
  split
  · rename_i h
    have hfind : (precalculated func maxOrder).find? (fun p => p.1 == n) = some (n, func n) := by
      unfold precalculated
      rw [List.find?_map]
      have : (List.range (maxOrder + 1).toNat).find? ((fun p : Int × α => p.1 == n) ∘
          fun i : Nat => ((i : Int), func i)) = some n.toNat := by
        rw [List.find?_range_eq_some]
        refine ⟨?_, ?_, ?_⟩
        · simp [hn]
        · simp; omega
        · intro j hj
          simp
          omega
      rw [this]
      simp [hn]
    simp [mapAt, hfind]
  · rfl

/-- A negative order that is not above the stored ones throws. -/
theorem C63_coefficient_negative {α : Type} (func : Int → α) (maxOrder n : Int) (hn : n < 0)
    (h : n ≤ maxOrder) : getCoefficient func maxOrder n = .err .outOfRange := by
  have hfind : (precalculated func maxOrder).find? (fun p => p.1 == n) = none := by
    simp only [precalculated, List.find?_eq_none, List.mem_map, List.mem_range]
    rintro p ⟨i, -, rfl⟩
    simp
    omega
  simp [getCoefficient, h, mapAt, hfind]

example : getCoefficient (fun n => n * n) 5 3 = .ok 9 ∧ getCoefficient (fun n => n * n) 5 7 = .ok 49 ∧
    getCoefficient (fun n => n * n) 5 (-1) = .err .outOfRange := by decide

/-! ### Small arguments -/

theorem hasDerivAt_term (c : ℝ) (l : Nat) (x : ℝ) :
    HasDerivAt (fun x : ℝ => x * (-x / c) ^ l) ((l + 1) * (-x / c) ^ l) x := by
  have e : (fun x : ℝ => x * (-x / c) ^ l) = fun x => (-1 / c) ^ l * x ^ (l + 1) := by
    funext y
    rw [pow_succ, show -y / c = (-1 / c) * y by ring, mul_pow]
    ring
  rw [e]
  refine ((hasDerivAt_pow (l + 1) x).const_mul _).congr_deriv ?_
  rw [show -x / c = (-1 / c) * x by ring, mul_pow]
  push_cast [Nat.add_sub_cancel]
  ring

theorem term_pow (x : ℝ) (l : Nat) :
    (-x / 4) ^ l * Real.pi ^ (2 - 2 * (l : ℤ)) = Real.pi ^ 2 * (-x / (4 * Real.pi ^ 2)) ^ l := by
  have hpi := Real.pi_ne_zero
  have e : Real.pi ^ (2 - 2 * (l : ℤ)) = Real.pi ^ 2 / (Real.pi ^ 2) ^ l := by
    rw [zpow_sub₀ hpi, ← pow_mul]
    norm_cast
  rw [e, show -x / (4 * Real.pi ^ 2) = (-x / 4) / Real.pi ^ 2 by field_simp, div_pow _ (Real.pi ^ 2)]
  field_simp

/-- Without the case distinction for a vanishing argument. -/
theorem fermionLow_zero_mode (zeta : Nat → ℝ) (x : ℝ) (n : Nat) :
    fermionLow zeta x n 0 = -7 * Real.pi ^ 4 / 360 + Real.pi ^ 2 / 24 * x
      + 1 / 32 * x ^ 2 * (Real.log x
        - (3 / 2 + 2 * Real.log (4 * Real.pi) - 2 * eulerGamma - 2 * Real.log 4))
      + -Real.pi ^ 2 * ∑ l ∈ Finset.Icc 2 n,
        fermionLowCoeff zeta l * (x * (-x / (4 * Real.pi ^ 2)) ^ l) := by
  unfold fermionLow
  by_cases hx : x = 0
  · subst hx
    simp
  · simp only [hx, false_and, if_false, if_true]
    rw [mul_assoc (-Real.pi ^ 2) x, Finset.mul_sum]
    congr 2
    exact Finset.sum_congr rfl fun l _ => by ring

theorem bosonLow_zero_mode (zeta : Nat → ℝ) (x : ℝ) (n : Nat) :
    bosonLow zeta x n 0 = -Real.pi ^ 4 / 45 + Real.pi ^ 2 * x / 12
      + -Real.pi * x ^ (3 / 2 : ℝ) / 6
      + -x ^ 2 * (Real.log x - (3 / 2 + 2 * Real.log (4 * Real.pi) - 2 * eulerGamma)) / 32
      + Real.pi ^ 2 * ∑ l ∈ Finset.Icc 2 n,
        bosonLowCoeff zeta l * (x * (-x / (4 * Real.pi ^ 2)) ^ l) := by
  unfold bosonLow
  by_cases hx : x = 0
  · subst hx
    simp
  · simp only [hx, false_and, if_false, if_true]
    rw [mul_assoc (Real.pi ^ 2) x, Finset.mul_sum]
    congr 2
    exact Finset.sum_congr rfl fun l _ => by ring

theorem sum_deriv (K : Nat → ℝ) (n : Nat) (x : ℝ) :
    HasDerivAt (fun x : ℝ => ∑ l ∈ Finset.Icc 2 n, K l * (x * (-x / (4 * Real.pi ^ 2)) ^ l))
      (∑ l ∈ Finset.Icc 2 n, K l * ((l + 1) * (-x / (4 * Real.pi ^ 2)) ^ l)) x :=
  HasDerivAt.fun_sum fun l _ => (hasDerivAt_term (4 * Real.pi ^ 2) l x).const_mul (K l)

/-- The derivative mode of the fermion expansion is the derivative of its value, for every order and
every positive argument. -/
theorem C63_fermion_low (zeta : Nat → ℝ) (n : Nat) (x : ℝ) (hx : 0 < x) :
    HasDerivAt (fun x => fermionLow zeta x n 0) (fermionLow zeta x n 1) x := by
  have e : (fun x => fermionLow zeta x n 0) = _ := funext fun x => fermionLow_zero_mode zeta x n
  rw [e]
  have hlog := Real.hasDerivAt_log hx.ne'
  have h1 : HasDerivAt (fun x : ℝ => 1 / 32 * x ^ 2 * (Real.log x
      - (3 / 2 + 2 * Real.log (4 * Real.pi) - 2 * eulerGamma - 2 * Real.log 4)))
      (1 / 32 * (2 * x) * (Real.log x
      - (3 / 2 + 2 * Real.log (4 * Real.pi) - 2 * eulerGamma - 2 * Real.log 4))
      + 1 / 32 * x ^ 2 * x⁻¹) x := by
    refine (((hasDerivAt_pow 2 x).const_mul (1 / 32)).mul (hlog.sub_const _)).congr_deriv ?_
    simp
  have h0 : HasDerivAt (fun x : ℝ => -7 * Real.pi ^ 4 / 360 + Real.pi ^ 2 / 24 * x)
      (Real.pi ^ 2 / 24) x := by
    simpa using ((hasDerivAt_id' x).const_mul (Real.pi ^ 2 / 24)).const_add (-7 * Real.pi ^ 4 / 360)
  refine ((h0.add h1).add ((sum_deriv (fermionLowCoeff zeta) n x).const_mul _)).congr_deriv ?_
  unfold fermionLow
  simp only [hx.ne', false_and, if_false, one_ne_zero, if_true]
  have hs : -Real.pi ^ 2 * ∑ l ∈ Finset.Icc 2 n,
      fermionLowCoeff zeta l * ((l + 1) * (-x / (4 * Real.pi ^ 2)) ^ l) =
      ∑ l ∈ Finset.Icc 2 n,
        -fermionLowCoeff zeta l * (-x / 4) ^ l * (l + 1) * Real.pi ^ (2 - 2 * (l : ℤ)) := by
    rw [Finset.mul_sum]
    refine Finset.sum_congr rfl fun l _ => ?_
    have := term_pow x l
    linear_combination (fermionLowCoeff zeta l * (l + 1)) * this
  rw [hs]
  field_simp
  ring

/-- The same for bosons. -/
theorem C63_boson_low (zeta : Nat → ℝ) (n : Nat) (x : ℝ) (hx : 0 < x) :
    HasDerivAt (fun x => bosonLow zeta x n 0) (bosonLow zeta x n 1) x := by
  have e : (fun x => bosonLow zeta x n 0) = _ := funext fun x => bosonLow_zero_mode zeta x n
  rw [e]
  have hlog := Real.hasDerivAt_log hx.ne'
  have h1 : HasDerivAt (fun x : ℝ => -x ^ 2 * (Real.log x
      - (3 / 2 + 2 * Real.log (4 * Real.pi) - 2 * eulerGamma)) / 32)
      ((-(2 * x) * (Real.log x - (3 / 2 + 2 * Real.log (4 * Real.pi) - 2 * eulerGamma))
      + -x ^ 2 * x⁻¹) / 32) x := by
    refine (((hasDerivAt_pow 2 x).neg.mul (hlog.sub_const _)).div_const 32).congr_deriv ?_
    simp
  have h0 : HasDerivAt (fun x : ℝ => -Real.pi ^ 4 / 45 + Real.pi ^ 2 * x / 12)
      (Real.pi ^ 2 / 12) x := by
    simpa using (((hasDerivAt_id' x).const_mul (Real.pi ^ 2)).div_const 12).const_add
      (-Real.pi ^ 4 / 45)
  have h2 : HasDerivAt (fun x : ℝ => -Real.pi * x ^ (3 / 2 : ℝ) / 6) (-Real.pi * √x / 4) x := by
    refine (((Real.hasDerivAt_rpow_const (p := 3 / 2) (Or.inl hx.ne')).const_mul
      (-Real.pi)).div_const 6).congr_deriv ?_
    rw [Real.sqrt_eq_rpow, show (3 / 2 - 1 : ℝ) = 1 / 2 by norm_num]
    ring
  refine (((h0.add h2).add h1).add
    ((sum_deriv (bosonLowCoeff zeta) n x).const_mul _)).congr_deriv ?_
  unfold bosonLow
  simp only [hx.ne', false_and, if_false, one_ne_zero, if_true]
  have hs : Real.pi ^ 2 * ∑ l ∈ Finset.Icc 2 n,
      bosonLowCoeff zeta l * ((l + 1) * (-x / (4 * Real.pi ^ 2)) ^ l) =
      ∑ l ∈ Finset.Icc 2 n,
        bosonLowCoeff zeta l * (-x / 4) ^ l * (l + 1) * Real.pi ^ (2 - 2 * (l : ℤ)) := by
    rw [Finset.mul_sum]
    refine Finset.sum_congr rfl fun l _ => ?_
    have := term_pow x l
    linear_combination (-bosonLowCoeff zeta l * (l + 1)) * this
  rw [hs]
  field_simp
  ring

theorem hasDerivWithinAt_mul_self {h : ℝ → ℝ} {s : Set ℝ} (hh : ContinuousWithinAt h s 0) :
    HasDerivWithinAt (fun x => x * h x) (h 0) s 0 := by
  rw [hasDerivWithinAt_iff_tendsto_slope]
  have h1 : Tendsto h (𝓝[s \ {0}] 0) (𝓝 (h 0)) := hh.mono_left (nhdsWithin_mono _ Set.sdiff_subset)
  refine h1.congr' ?_
  filter_upwards [self_mem_nhdsWithin] with y hy
  have hy0 : y ≠ 0 := by simpa using hy.2
  rw [slope_def_field]
  field_simp
  ring

/-- At zero the values written down separately continue the expansions: the derivative from the right
is the one returned. -/
theorem C63_low_at_zero (zeta : Nat → ℝ) (n : Nat) :
    HasDerivWithinAt (fun x => fermionLow zeta x n 0) (fermionLow zeta 0 n 1) (Set.Ici 0) 0 ∧
      HasDerivWithinAt (fun x => bosonLow zeta x n 0) (bosonLow zeta 0 n 1) (Set.Ici 0) 0 := by
  have hxlog : ContinuousWithinAt (fun x : ℝ => x * Real.log x) (Set.Ici 0) 0 :=
    Real.continuous_mul_log.continuousWithinAt
  have hsum : ∀ K : Nat → ℝ, Continuous fun x : ℝ =>
      ∑ l ∈ Finset.Icc 2 n, K l * (-x / (4 * Real.pi ^ 2)) ^ l := by
    intro K
    fun_prop
  have hsum0 : ∀ K : Nat → ℝ,
      ∑ l ∈ Finset.Icc 2 n, K l * (-(0 : ℝ) / (4 * Real.pi ^ 2)) ^ l = 0 := by
    intro K
    refine Finset.sum_eq_zero fun l hl => ?_
    have : l ≠ 0 := by have := (Finset.mem_Icc.mp hl).1; omega
    simp [this]
  constructor
  · set cf := 3 / 2 + 2 * Real.log (4 * Real.pi) - 2 * eulerGamma - 2 * Real.log 4 with hcf
    have hc : ContinuousWithinAt (fun x : ℝ => Real.pi ^ 2 / 24
        + (1 / 32 * (x * Real.log x) - 1 / 32 * x * cf)
        + -Real.pi ^ 2 * ∑ l ∈ Finset.Icc 2 n,
          fermionLowCoeff zeta l * (-x / (4 * Real.pi ^ 2)) ^ l) (Set.Ici 0) 0 := by
      refine ContinuousWithinAt.add (continuousWithinAt_const.add ?_)
        (continuousWithinAt_const.mul (hsum _).continuousWithinAt)
      refine (continuousWithinAt_const.mul hxlog).sub ?_
      exact ((continuous_const.mul continuous_id').mul continuous_const).continuousWithinAt
    have hd := (hasDerivWithinAt_mul_self hc).const_add (-7 * Real.pi ^ 4 / 360)
    refine (hd.congr_of_mem (fun x _ => ?_) (by simp)).congr_deriv ?_
    · rw [fermionLow_zero_mode, ← hcf]
      have : ∑ l ∈ Finset.Icc 2 n, fermionLowCoeff zeta l * (x * (-x / (4 * Real.pi ^ 2)) ^ l) =
          x * ∑ l ∈ Finset.Icc 2 n, fermionLowCoeff zeta l * (-x / (4 * Real.pi ^ 2)) ^ l := by
        rw [Finset.mul_sum]
        exact Finset.sum_congr rfl fun l _ => by ring
      rw [this]
      ring
    · rw [hsum0]
      simp [fermionLow]
  · set cb := 3 / 2 + 2 * Real.log (4 * Real.pi) - 2 * eulerGamma with hcb
    have hc : ContinuousWithinAt (fun x : ℝ => Real.pi ^ 2 / 12 + -Real.pi * √x / 6
        + (-(x * Real.log x) / 32 + x * cb / 32)
        + Real.pi ^ 2 * ∑ l ∈ Finset.Icc 2 n,
          bosonLowCoeff zeta l * (-x / (4 * Real.pi ^ 2)) ^ l) (Set.Ici 0) 0 := by
      refine ContinuousWithinAt.add (ContinuousWithinAt.add (continuousWithinAt_const.add ?_) ?_)
        (continuousWithinAt_const.mul (hsum _).continuousWithinAt)
      · exact (((Real.continuous_sqrt).const_mul (-Real.pi)).div_const 6).continuousWithinAt
      · exact (hxlog.neg.div_const 32).add
          ((continuous_id'.mul continuous_const).div_const 32).continuousWithinAt
    have hd := (hasDerivWithinAt_mul_self hc).const_add (-Real.pi ^ 4 / 45)
    refine (hd.congr_of_mem (fun x hx => ?_) (by simp)).congr_deriv ?_
    · rw [bosonLow_zero_mode, ← hcb]
      have : ∑ l ∈ Finset.Icc 2 n, bosonLowCoeff zeta l * (x * (-x / (4 * Real.pi ^ 2)) ^ l) =
          x * ∑ l ∈ Finset.Icc 2 n, bosonLowCoeff zeta l * (-x / (4 * Real.pi ^ 2)) ^ l := by
        rw [Finset.mul_sum]
        exact Finset.sum_congr rfl fun l _ => by ring
      have h32 : x ^ (3 / 2 : ℝ) = x * √x := by
        rw [Real.sqrt_eq_rpow, ← Real.rpow_one_add' hx (by norm_num)]
        norm_num
      rw [this, h32]
      ring
    · rw [hsum0]
      simp [bosonLow]

/-! ### Large arguments -/

/-- What the derivative of the expansion for large arguments is. -/
noncomputable def Spec.highDeriv (x : ℝ) (n : Nat) : ℝ :=
  Real.exp (-√x) * √(2 * Real.pi) / (8 * x ^ (3 / 4 : ℝ)) *
    ∑ l ∈ Finset.range (n + 1), highCoeff l * x ^ ((1 - (l : ℝ)) / 2) * (2 * l + 2 * √x - 3)

theorem Spec.highDeriv_correct (n : Nat) (x : ℝ) (hx : 0 < x) :
    HasDerivAt (fun x => high x n 0) (Spec.highDeriv x n) x := by
  have e : ∀ y : ℝ, 0 < y → high y n 0 = ∑ l ∈ Finset.range (n + 1),
      -(√(2 * Real.pi) / 2) * highCoeff l * (Real.exp (-√y) * y ^ (3 / 4 - (l : ℝ) / 2)) := by
    intro y hy
    unfold high
    rw [if_pos rfl, Finset.mul_sum]
    refine Finset.sum_congr rfl fun l _ => ?_
    have h1 : √(Real.pi / 2 * y ^ (3 / 2 : ℝ)) = √(2 * Real.pi) / 2 * y ^ (3 / 4 : ℝ) := by
      rw [Real.sqrt_mul (by positivity), Real.sqrt_eq_rpow (y ^ (3 / 2 : ℝ)), ← Real.rpow_mul hy.le]
      congr 1
      · rw [show Real.pi / 2 = 2 * Real.pi / 2 ^ 2 by ring, Real.sqrt_div (by positivity),
          Real.sqrt_sq (by norm_num)]
      · norm_num
    have h2 : y ^ (3 / 4 - (l : ℝ) / 2) = y ^ (3 / 4 : ℝ) * y ^ (-(l : ℝ) / 2) := by
      rw [← Real.rpow_add hy]
      congr 1
      ring
    rw [h1, h2]
    ring
  have hev : (fun x => high x n 0) =ᶠ[𝓝 x] fun y => ∑ l ∈ Finset.range (n + 1),
      -(√(2 * Real.pi) / 2) * highCoeff l * (Real.exp (-√y) * y ^ (3 / 4 - (l : ℝ) / 2)) := by
    filter_upwards [isOpen_Ioi.mem_nhds hx] with y hy using e y hy
  refine (HasDerivAt.congr_of_eventuallyEq ?_ hev)
  have hterm : ∀ l ∈ Finset.range (n + 1), HasDerivAt (fun y : ℝ =>
      -(√(2 * Real.pi) / 2) * highCoeff l * (Real.exp (-√y) * y ^ (3 / 4 - (l : ℝ) / 2)))
      (-(√(2 * Real.pi) / 2) * highCoeff l * (Real.exp (-√x) * -(1 / (2 * √x)) *
        x ^ (3 / 4 - (l : ℝ) / 2) + Real.exp (-√x) * ((3 / 4 - (l : ℝ) / 2) *
        x ^ (3 / 4 - (l : ℝ) / 2 - 1)))) x := by
    intro l _
    exact (((Real.hasDerivAt_sqrt hx.ne').neg.exp).mul
      (Real.hasDerivAt_rpow_const (Or.inl hx.ne'))).const_mul _
  refine (HasDerivAt.fun_sum hterm).congr_deriv ?_
  unfold Spec.highDeriv
  rw [Finset.mul_sum]
  refine Finset.sum_congr rfl fun l _ => ?_
  have h34 : 0 < x ^ (3 / 4 : ℝ) := Real.rpow_pos_of_pos hx _
  have hs : 0 < √x := Real.sqrt_pos.mpr hx
  have hsx : √x * √x = x := Real.mul_self_sqrt hx.le
  set w := x ^ ((1 - (l : ℝ)) / 2) with hw
  have e1 : x ^ (3 / 4 - (l : ℝ) / 2 - 1) = w / x ^ (3 / 4 : ℝ) := by
    rw [hw, ← Real.rpow_sub hx]
    congr 1
    ring
  have e2 : x ^ (3 / 4 - (l : ℝ) / 2) = w / x ^ (3 / 4 : ℝ) * (√x * √x) := by
    rw [← e1, hsx, Real.rpow_sub_one hx.ne']
    field_simp
  rw [e1, e2]
  field_simp
  ring

theorem highCoeff_values : highCoeff 0 = 1 ∧ highCoeff 1 = 15 / 8 ∧ highCoeff 2 = 105 / 128 ∧
    highCoeff 3 = -315 / 1024 := by
  have hpi : 0 < √Real.pi := Real.sqrt_pos.mpr Real.pi_pos
  have g12 : Real.Gamma (1 / 2) = √Real.pi := Real.Gamma_one_half_eq
  have g32 : Real.Gamma (3 / 2) = 1 / 2 * √Real.pi := by
    have := Real.Gamma_add_one (s := 1 / 2) (by norm_num)
    rw [g12] at this
    rw [← this]; norm_num
  have g52 : Real.Gamma (5 / 2) = 3 / 2 * (1 / 2 * √Real.pi) := by
    have := Real.Gamma_add_one (s := 3 / 2) (by norm_num)
    rw [g32] at this
    rw [← this]; norm_num
  have g72 : Real.Gamma (7 / 2) = 5 / 2 * (3 / 2 * (1 / 2 * √Real.pi)) := by
    have := Real.Gamma_add_one (s := 5 / 2) (by norm_num)
    rw [g52] at this
    rw [← this]; norm_num
  have g92 : Real.Gamma (9 / 2) = 7 / 2 * (5 / 2 * (3 / 2 * (1 / 2 * √Real.pi))) := by
    have := Real.Gamma_add_one (s := 7 / 2) (by norm_num)
    rw [g72] at this
    rw [← this]; norm_num
  have g112 : Real.Gamma (11 / 2) = 9 / 2 * (7 / 2 * (5 / 2 * (3 / 2 * (1 / 2 * √Real.pi)))) := by
    have := Real.Gamma_add_one (s := 9 / 2) (by norm_num)
    rw [g92] at this
    rw [← this]; norm_num
  have gm12 : Real.Gamma (-1 / 2) = -2 * √Real.pi := by
    have := Real.Gamma_add_one (s := -1 / 2) (by norm_num)
    rw [show (-1 / 2 + 1 : ℝ) = 1 / 2 by norm_num, g12] at this
    linarith
  refine ⟨?_, ?_, ?_, ?_⟩ <;> unfold highCoeff <;> norm_num [Nat.factorial]
  · rw [g52]; positivity
  · rw [g72, g32]; field_simp; norm_num
  · rw [g92, g12]; field_simp; norm_num
  · rw [g112, show (-(1 / 2) : ℝ) = -1 / 2 by norm_num, gm12]; field_simp; norm_num

/-- The exponent `(1 - l) / 2` is an integer division: for large arguments the derivative mode (with
the order used by the program) is different from the derivative of the value, at every argument for
which the program uses this expansion for bosons. -/
theorem C63_high_fails (x : ℝ) (hx : bosonTheta ≤ x) :
    ¬ HasDerivAt (fun x => high x 3 0) (high x 3 1) x := by
  have hpos : 0 < x := lt_of_lt_of_le (by unfold bosonTheta; norm_num) hx
  intro h
  have huniq := h.unique (Spec.highDeriv_correct 3 x hpos)
  obtain ⟨k0, k1, k2, k3⟩ := highCoeff_values
  have hs : 0 < √x := Real.sqrt_pos.mpr hpos
  have hsx : √x * √x = x := Real.mul_self_sqrt hpos.le
  unfold high Spec.highDeriv at huniq
  simp only [one_ne_zero, if_false, if_true] at huniq
  have hf : Real.exp (-√x) * √(2 * Real.pi) / (8 * x ^ (3 / 4 : ℝ)) ≠ 0 := by positivity
  have hsum := mul_left_cancel₀ hf huniq
  simp only [Finset.sum_range_succ, Finset.sum_range_zero, k0, k1, k2, k3] at hsum
  have e0 : ((1 - ((0 : ℕ) : Int)).tdiv 2) = 0 := by decide
  have e1 : ((1 - ((1 : ℕ) : Int)).tdiv 2) = 0 := by decide
  have e2 : ((1 - ((2 : ℕ) : Int)).tdiv 2) = 0 := by decide
  have e3 : ((1 - ((3 : ℕ) : Int)).tdiv 2) = -1 := by decide
  have r0 : x ^ ((1 - ((0 : ℕ) : ℝ)) / 2) = √x := by
    rw [Real.sqrt_eq_rpow]; norm_num
  have r1 : x ^ ((1 - ((1 : ℕ) : ℝ)) / 2) = 1 := by norm_num
  have r2 : x ^ ((1 - ((2 : ℕ) : ℝ)) / 2) = (√x)⁻¹ := by
    rw [Real.sqrt_eq_rpow, ← Real.rpow_neg hpos.le]; norm_num
  have r3 : x ^ ((1 - ((3 : ℕ) : ℝ)) / 2) = x⁻¹ := by
    rw [← Real.rpow_neg_one]; norm_num
  rw [e0, e1, e2, e3, r0, r1, r2, r3] at hsum
  simp only [zpow_zero, zpow_neg_one] at hsum
  have h3 : (3 : ℝ) < √x := by
    refine Real.lt_sqrt_of_sq_lt (lt_of_lt_of_le ?_ hx)
    unfold bosonTheta; norm_num
  set s := √x
  have key : (1 - s) * ((2 * s - 3) * s - 105 / 128 * (1 + 2 * s)) = 0 := by
    have hs' : s ≠ 0 := hs.ne'
    push_cast at hsum
    have := congrArg (fun z => z * s) hsum
    field_simp at this
    have hx0 := hpos.ne'
    rw [← hsx] at this
    field_simp at this
    nlinarith
  rcases mul_eq_zero.mp key with h0 | h0
  · linarith
  · nlinarith

end Verif.Thermal
