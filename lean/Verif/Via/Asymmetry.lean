import Verif.Outcome
import Mathlib.Analysis.SpecialFunctions.Sqrt
import Mathlib.Analysis.SpecialFunctions.Trigonometric.Basic
import Mathlib.MeasureTheory.Integral.IntervalIntegral.Basic

/-!
# The baryon asymmetry from the density of left-handed particles
-/

namespace Verif.Via

open Outcome

/-- The points in `set_up_nL_grid`, gen_calc.cpp:21-79; the three methods differ only in `density`, their
`Calc_nL`.  For `n = 0` the C++ quotient is NaN, here it is 0. -/
noncomputable def nlGrid (n : ℕ) (zmax : ℝ) (density : ℝ → ℝ → ℝ) : List ℝ × List ℝ :=
  ((List.range (n + 1)).map fun (i : ℕ) => (i : ℝ) * zmax / n,
   (List.range (n + 1)).map fun (i : ℕ) => density zmax ((i : ℝ) * zmax / n))

/-- The members of `Calc_eta` after `set_class`. -/
structure EtaClass where
  prefactor : ℝ
  exponent : ℝ
  t0 : ℝ
  h : ℝ

/-- `Dq` in `Calc_eta::set_class`, gen_func_fluid.cpp:300. -/
noncomputable def etaDq (temp : ℝ) : ℝ := 6 / temp

/-- `GamWS` in `Calc_eta::set_class`, gen_func_fluid.cpp:296-302. -/
noncomputable def etaGamWS (temp : ℝ) : ℝ := 6 * 20 * (0.65 * 0.65 / (4 * Real.pi)) ^ 5 * temp

/-- `s_entr` in `Calc_eta::set_class`, gen_func_fluid.cpp:298-299. -/
noncomputable def etaEntropy (temp : ℝ) : ℝ := 106.75 * temp ^ 3 * 2 * Real.pi * Real.pi / 45

/-- Both overloads of `Calc_eta::set_class`, gen_func_fluid.cpp:285-367; the spline is built from `t0` and
`h` and the values. -/
noncomputable def etaSetClass (z : List ℝ) (temp vw : ℝ) : Outcome EtaClass :=
  let dq := etaDq temp
  let gamWS := etaGamWS temp
  let omega := √(vw * vw + 4 * gamWS * dq * (15 / 4))
  let pre := -3 * gamWS / (2 * omega * etaEntropy temp)
  let ex := (vw - omega) / (2 * dq)
  match z[0]?, z[z.length - 1]? with
  | some z0, some zl =>
    if z0 < zl then
      match z[1]? with
      | some z1 => ok ⟨pre, ex, z0, z1 - z0⟩
      | none => err .outOfRange
    else if zl < z0 then
      match z[1]? with
      | some z1 => ok ⟨pre, ex, zl, z0 - z1⟩
      | none => err .outOfRange
    else ok ⟨pre, ex, 0, 0⟩
  | _, _ => err .outOfRange

/-- `Nintegrate_eta` with `Calc_eta::operator()`, gen_func_fluid.cpp:267-275 and 369-387: from `zEnd` back to
`zStart`.  The adaptive integrator is replaced by the integral. -/
noncomputable def nintegrateEta (c : EtaClass) (nL : ℝ → ℝ) (zStart zEnd : ℝ) : ℝ :=
  c.prefactor * ∫ z in zEnd..zStart, nL z * Real.exp (c.exponent * z)

/-- One method in `CalculateEtaInterface::CalcEta`, CalculateEtaInterface.cpp:269-272, 284-287, 298-301.
`spline values t0 h` is the interpolation of `boost_cubic_b_spline`. -/
noncomputable def etaOf (spline : List ℝ → ℝ → ℝ → ℝ → ℝ) (n : ℕ) (zmax temp vw : ℝ) (density : ℝ → ℝ → ℝ) :
    Outcome ℝ :=
  match etaSetClass (nlGrid n zmax density).1 temp vw with
  | ok c => ok (nintegrateEta c (spline (nlGrid n zmax density).2 c.t0 c.h) 0 zmax)
  | err e => err e
  | ub u => ub u

end Verif.Via
