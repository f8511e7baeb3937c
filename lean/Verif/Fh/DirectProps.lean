import Verif.Fh.Direct
import Mathlib.Analysis.SpecialFunctions.Integrals.Basic
import Mathlib.Tactic.FieldSimp
import Mathlib.Tactic.Linarith
import Mathlib.Tactic.Positivity

/-!
# How much the interpolation of the driving potential changes the asymmetry
-/

namespace Verif.Fh

open Set MeasureTheory

/-- The integral of the damping is at most the inverse of its rate. -/
theorem integral_damping_le {nu zmax : ℝ} (hn : 0 < nu) :
    ∫ z in (0 : ℝ)..zmax, Real.exp (-nu * z) ≤ 1 / nu := by
  have hd : ∀ z ∈ uIcc (0 : ℝ) zmax,
      HasDerivAt (fun z => -(Real.exp (-nu * z) / nu)) (Real.exp (-nu * z)) z := by
    intro z _
    have h := (((hasDerivAt_id z).const_mul (-nu)).exp.div_const nu).neg
    have e : Real.exp (-nu * z) = -(Real.exp (-nu * z) * (-nu * 1) / nu) := by field_simp
    rw [e]
    exact h
  rw [intervalIntegral.integral_eq_sub_of_hasDerivAt hd
    (by apply Continuous.intervalIntegrable; fun_prop)]
  have := Real.exp_pos (-nu * zmax)
  have h2 : 0 ≤ Real.exp (-nu * zmax) / nu := by positivity
  simp only [mul_zero, Real.exp_zero]
  linarith

/-- The direct integral is the one over the damped driving potential, with the washout rate
`45 Γ / (4 v)`, `Γ = 1e-6 T`. -/
theorem C93_direct (density : ℝ → ℝ) (zmax T v : ℝ) :
    integrateMubl density zmax T v =
      ∫ z in (0 : ℝ)..zmax, density z * Real.exp (-(45 * (T / 10 ^ 6) / (4 * v)) * z) := by
  unfold integrateMubl etaIntegrand
  apply intervalIntegral.integral_congr
  intro z _
  simp only
  congr 3
  ring

/-- If the spline differs from the driving potential by at most `δ` in front of the wall, the reported asymmetry
differs by at most `9 δ / (π² g T)` from the one of the direct integral, whatever the velocity of the wall and
the distance at which the integration ends. -/
theorem C93_interpolation (spline : List ℝ → ℝ → ℝ → ℝ → ℝ) (density : ℝ → ℝ) {zmax T v δ : ℝ}
    (hz : 0 ≤ zmax) (hT : 0 < T) (hv : 0 < v)
    (hs : ContinuousOn (spline ((List.range 101).map fun i : ℕ => density (i * (zmax / 100))) 0 (zmax / 100))
      (Icc 0 zmax))
    (hd : ContinuousOn density (Icc 0 zmax))
    (h : ∀ z ∈ Icc 0 zmax,
      |spline ((List.range 101).map fun i : ℕ => density (i * (zmax / 100))) 0 (zmax / 100) z - density z| ≤ δ) :
    |etaOf spline density zmax T v
        - 405 * (T / 10 ^ 6) / (4 * Real.pi ^ 2 * v * 106.75 * T) * integrateMubl density zmax T v|
      ≤ 9 * δ / (Real.pi ^ 2 * 106.75 * T) := by
  have hpi := Real.pi_pos
  rw [C93_direct]
  unfold etaOf eta
  simp only [sub_zero]
  generalize hf : spline ((List.range 101).map fun i : ℕ => density (i * (zmax / 100))) 0 (zmax / 100) = f at *
  have hnu : 45 * (1 / 1000000 * T) / (4 * v) = 45 * (T / 10 ^ 6) / (4 * v) := by ring
  rw [hnu]
  set nu := 45 * (T / 10 ^ 6) / (4 * v) with hnud
  have hn : 0 < nu := by rw [hnud]; positivity
  set p := 405 * (T / 10 ^ 6) / (4 * Real.pi ^ 2 * v * 106.75 * T) with hp
  have hp0 : 0 < p := by rw [hp]; positivity
  have hpe : 405 * (1 / 1000000 * T) / (4 * Real.pi * Real.pi * v * (10675 / 100) * T) = p := by
    rw [hp]; norm_num; ring
  rw [hpe]
  have he : Continuous fun z : ℝ => Real.exp (-nu * z) := by fun_prop
  have i1 : IntervalIntegrable (fun z => f z * Real.exp (-nu * z)) volume 0 zmax := by
    apply ContinuousOn.intervalIntegrable
    rw [uIcc_of_le hz]
    exact hs.mul he.continuousOn
  have i2 : IntervalIntegrable (fun z => density z * Real.exp (-nu * z)) volume 0 zmax := by
    apply ContinuousOn.intervalIntegrable
    rw [uIcc_of_le hz]
    exact hd.mul he.continuousOn
  have e1 : (∫ z in (0 : ℝ)..zmax, f z * Real.exp (-nu * z)) * p
      - p * (∫ z in (0 : ℝ)..zmax, density z * Real.exp (-nu * z))
      = p * ∫ z in (0 : ℝ)..zmax, (f z * Real.exp (-nu * z) - density z * Real.exp (-nu * z)) := by
    rw [intervalIntegral.integral_sub i1 i2]; ring
  rw [e1, abs_mul, abs_of_pos hp0]
  have hδ : 0 ≤ δ := (abs_nonneg _).trans (h 0 ⟨le_refl _, hz⟩)
  have b : |∫ z in (0 : ℝ)..zmax, (f z * Real.exp (-nu * z) - density z * Real.exp (-nu * z))|
      ≤ ∫ z in (0 : ℝ)..zmax, δ * Real.exp (-nu * z) := by
    rw [← Real.norm_eq_abs]
    apply intervalIntegral.norm_integral_le_of_norm_le hz
    · refine Filter.Eventually.of_forall fun z hz' => ?_
      rw [Real.norm_eq_abs, ← sub_mul, abs_mul, abs_of_pos (Real.exp_pos _)]
      exact mul_le_mul_of_nonneg_right (h z ⟨hz'.1.le, hz'.2⟩) (Real.exp_pos _).le
    · apply Continuous.intervalIntegrable; fun_prop
  rw [intervalIntegral.integral_const_mul] at b
  have b2 := mul_le_mul_of_nonneg_left (integral_damping_le (zmax := zmax) hn) hδ
  have b3 := mul_le_mul_of_nonneg_left (b.trans b2) hp0.le
  refine b3.trans (le_of_eq ?_)
  rw [hp, hnud]
  field_simp
  ring

/-- A constant potential is interpolated exactly by a spline through its first value. -/
example : |etaOf (fun ys _ _ _ => ys.headD 0) (fun _ => 1) 1 100 (1 / 10)
    - 405 * (100 / 10 ^ 6) / (4 * Real.pi ^ 2 * (1 / 10) * 106.75 * 100) *
      integrateMubl (fun _ => 1) 1 100 (1 / 10)| ≤ 9 * 0 / (Real.pi ^ 2 * 106.75 * 100) := by
  apply C93_interpolation
  · norm_num
  · norm_num
  · norm_num
  · exact continuousOn_const
  · exact continuousOn_const
  · intro z _
    rw [show List.range 101 = 0 :: (List.range 100).map Nat.succ from List.range_succ_eq_map]
    simp only [List.map_cons, List.headD_cons]
    norm_num

end Verif.Fh
