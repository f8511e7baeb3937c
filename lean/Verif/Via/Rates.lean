import Verif.Outcome
import Verif.Via.Source
import Mathlib.Analysis.SpecialFunctions.Trigonometric.Arctan

/-!
# Rates and thermal masses of the VEV insertion approximation

`Calc_Gam_M`, `Calc_ThermalMass_q`, `Calc_ThermalMass_l` and the numbers of `gen_fluid::set_class`, without
rounding.
-/

namespace Verif.Via

open Outcome

/-- `C_threshold`, ClassPotentialOrigin.h:37. -/
noncomputable def threshold : ℝ := 1e-4

/-- `Calc_Gam_M::hf`, gen_func_fluid.cpp:78-87.  Where the exponential exceeds `huge`, the largest number, it is
infinite, the quotient is not a number and the function throws. -/
noncomputable def hf (huge temp w : ℝ) : Outcome ℝ :=
  let e := Real.exp (w * (1 / temp))
  if huge < e then err .runtime else ok (cut (e / (1 + e) ^ 2))

/-- The factor of `hf` in `integrand`, gen_func_fluid.cpp:28-37. -/
noncomputable def gamBracket (gamT msq dmsq k : ℝ) : ℝ :=
  let w := √(k ^ 2 + msq)
  let dw := dmsq / (2 * √(k ^ 2 + msq))
  k ^ 2 / gamT - k ^ 4 / (w ^ 2 * gamT) + k ^ 4 * gamT / w ^ 4 + dw * k ^ 4 / (w ^ 3 * gamT) -
    2 * dw * k ^ 4 * gamT / w ^ 5

/-- `GamT` of `Calc_Gam_M::set_class`, gen_func_fluid.cpp:57-76. -/
noncomputable def width (lepton : Bool) (temp : ℝ) : ℝ := if lepton then 0.002 * temp else 0.16 * temp

/-- `Calc_Gam_M::operator()`, gen_func_fluid.cpp:21-55; `old` is the value of `dGam[0]` before the call.  A thermal
mass that equals the threshold leaves the integrand zero. -/
noncomputable def dGam (huge : ℝ) (lepton : Bool) (temp m msq dmsq k old : ℝ) : Outcome ℝ :=
  let w := √(k ^ 2 + msq)
  if |msq| < threshold then err .runtime
  else do
    let i ← if threshold < |msq| then do
        let h ← hf huge temp w
        pure (gamBracket (width lepton temp) msq dmsq k * h)
      else ok 0
    if smallcut < |i| then
      ok (6 / temp ^ 2 * (3 * (2 * m * m) * i) / (2 * Real.pi * Real.pi * temp))
    else if |i| < smallcut then ok 0 else ok old

/-- `gS`, `g` and `gprime`, gen_func_fluid.h:414-416. -/
noncomputable def gS : ℝ := 1.23
/-- `g`, gen_func_fluid.h:415. -/
noncomputable def gW : ℝ := 0.65
/-- `gprime`, gen_func_fluid.h:416. -/
noncomputable def gY : ℝ := 0.36

/-- `gen_fluid::Calc_ThermalMass_q`, gen_func_fluid.cpp:653-663. -/
noncomputable def thermalMassQ (y temp : ℝ) : ℝ × ℝ :=
  ((gY ^ 2 / 18 + gS ^ 2 / 6 + y ^ 2 / 8) * temp ^ 2, (5 * gY ^ 2 / 96 - 3 * gW ^ 2 / 32 + y ^ 2 / 16) * temp ^ 2)

/-- `gen_fluid::Calc_ThermalMass_l`, gen_func_fluid.cpp:664-673. -/
noncomputable def thermalMassL (y temp : ℝ) : ℝ × ℝ :=
  ((gY ^ 2 / 8 + y ^ 2 / 8) * temp ^ 2, (3 * gY ^ 2 / 4 - 3 * gW ^ 2 / 32 + y ^ 2 / 16) * temp ^ 2)

/-- The thermal masses that `gen_fluid::set_class` stores. -/
structure ThermalMasses where
  top : ℝ × ℝ
  bottom : ℝ × ℝ
  tau : ℝ × ℝ

/-- The Yukawa couplings of top, bottom and tau. -/
structure Yukawas where
  top : ℝ
  bottom : ℝ
  tau : ℝ

/-- The Yukawa couplings in `gen_fluid::set_class`, gen_func_fluid.cpp:603-644, for a `Yuk_Type` that is stored as an
integer. -/
noncomputable def yukawas (v tanbeta mTop mBottom mTau : ℝ) (yukType : Int) : Outcome Yukawas :=
  let s := Real.sin (Real.arctan tanbeta)
  let c := Real.cos (Real.arctan tanbeta)
  let t := √2 * mTop / (v * s)
  if yukType = 1 then ok ⟨t, √2 * mBottom / (v * s), √2 * mTau / (v * s)⟩
  else if yukType = 2 then ok ⟨t, √2 * mBottom / (v * c), √2 * mTau / (v * c)⟩
  else err .runtime

/-- The thermal masses in `gen_fluid::set_class`, gen_func_fluid.cpp:610-640. -/
noncomputable def thermalMasses (y : Yukawas) (temp : ℝ) : ThermalMasses :=
  ⟨thermalMassQ y.top temp, thermalMassQ y.bottom temp, thermalMassL y.tau temp⟩

end Verif.Via
