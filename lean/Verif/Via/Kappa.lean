import Verif.Outcome
import Verif.Flt
import Mathlib.Analysis.SpecialFunctions.Exp
import Mathlib.Analysis.SpecialFunctions.Trigonometric.Basic

/-!
# Model of the statistical factors and of the integrations over momenta (`gen_func_fluid.cpp`)

`integrate_adaptive` of boost is a parameter: it maps a right-hand side that does not depend on the solution, and
the two ends of the range, to the solution at the upper end for the initial value zero.
-/

namespace Verif.Via

open Outcome Real

/-- `Calc_kappa_t::operator()`, gen_func_fluid.cpp:235-245; the square root of a negative number is not a number. -/
noncomputable def kappaIntegrand (temp mt x : ℝ) : Flt ℝ :=
  if x * x - (mt / temp) ^ 2 < 0 then .nan
  else .fin (6 / (π * π) * (x * exp x * √(x * x - (mt / temp) ^ 2) / (exp x + 1) ^ 2))

/-- `NIntegrate_kappa`, gen_func_fluid.cpp:247-265. -/
noncomputable def integrateKappa (integ : (ℝ → Flt ℝ) → ℝ → ℝ → Flt ℝ) (temp mt : ℝ) : Flt ℝ :=
  integ (kappaIntegrand temp mt) (mt / temp + 1e-5) (3 * 1e2)

/-- `Nintegrate_GamM` and `Nintegrate_Scp`, gen_func_fluid.cpp:99-124 and 206-228, for the integrand of the relaxation
rate or of the source. -/
noncomputable def integrateMomenta (integ : (ℝ → Flt ℝ) → ℝ → ℝ → Flt ℝ) (f : ℝ → Flt ℝ) : Outcome ℝ :=
  match integ f 0 1e4 with
  | .nan => err .runtime
  | .fin x => ok x

end Verif.Via
