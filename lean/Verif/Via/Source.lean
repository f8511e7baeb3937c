import Mathlib.Analysis.SpecialFunctions.Trigonometric.DerivHyp
import Mathlib.Analysis.SpecialFunctions.Sqrt

/-!
# The phases in the wall and the CP-violating source
-/

namespace Verif.Via

/-- `gen_fluid::Calc_theta`, gen_func_fluid.cpp:472-518, without the message for models other than the C2HDM:
the phase and its first two derivatives. -/
noncomputable def calcTheta (lw sym brk z : ℝ) : ℝ × ℝ × ℝ :=
  if |sym| < 1e-12 ∧ |brk| < 1e-12 then (0, 0, 0)
  else
    let delta := brk - sym
    (brk - delta / 2 * (1 + Real.tanh (z / lw)),
      -delta / (2 * lw * Real.cosh (z / lw) ^ 2),
      delta * Real.tanh (z / lw) / (lw * Real.cosh (z / lw)) ^ 2)

/-- `C_smallcut`, gen_func_fluid.h:29. -/
noncomputable def smallcut : ℝ := 1e-20

/-- `if (std::abs(x) < C_smallcut) x = 0`. -/
noncomputable def cut (x : ℝ) : ℝ := if |x| < smallcut then 0 else x

/-- `Calc_Scp::nf`, gen_func_fluid.cpp:172-177. -/
noncomputable def nf (temp w : ℝ) : ℝ := cut (1 / (Real.exp (w / temp) + 1))

/-- `Calc_Scp::nf_prime`, gen_func_fluid.cpp:178-185. -/
noncomputable def nfPrime (temp w : ℝ) : ℝ :=
  let beta := 1 / temp
  cut (-(beta * Real.exp (beta * w)) / (1 + Real.exp (beta * w)) ^ 2)

/-- `integrand` in `Calc_Scp::operator()`, gen_func_fluid.cpp:126-170.  At `k = 0` the C++ quotient
`pow(k,4)*GamT/(2*pow(k,4))` is NaN; then the result of `operator()` is 0, as it is here, where the quotient
is 0. -/
noncomputable def scpIntegrand (temp gamT msq dmsq k : ℝ) : ℝ :=
  let w := √(k ^ 2 + msq)
  let dw := dmsq / (2 * √(k * k + msq))
  let i0 := cut (0 - k ^ 4 * gamT / (2 * w ^ 5))
  let i1 := cut (i0 + 5 * k ^ 4 * gamT * dw / (4 * w ^ 6))
  let i2 := cut (i1 + k ^ 4 * gamT * nf temp w / w ^ 5)
  let i3 := cut (i2 - 5 * k ^ 4 * gamT * dw * nf temp w / (2 * w ^ 6))
  let i4 := cut (i3 + (k * k / (2 * gamT) - k ^ 4 / (2 * w * w * gamT) - k ^ 4 * gamT / (2 * k ^ 4)) *
    nfPrime temp w)
  cut (i4 + (k ^ 4 / (2 * w ^ 3 * gamT) + 3 * k ^ 4 * gamT / (2 * w ^ 5)) * dw * nfPrime temp w)

/-- `Calc_Scp::operator()` with the members of `set_class`, gen_func_fluid.cpp:126-170 and 186-204, for a
thermal mass that is not below its threshold. -/
noncomputable def dScp (lepton : Bool) (temp vw m thetaPrime msq dmsq k : ℝ) : ℝ :=
  let gamT := if lepton then 0.002 * temp else 0.16 * temp
  let imff := 2 * m * m * thetaPrime
  let i := scpIntegrand temp gamT msq dmsq k
  if smallcut < |i| then 3 * vw * imff * i / (Real.pi * Real.pi) else 0

end Verif.Via
