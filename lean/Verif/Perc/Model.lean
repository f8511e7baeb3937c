import Verif.Bounce.Rates
import Mathlib.MeasureTheory.Integral.IntervalIntegral.Basic

/-!
# Model of the false vacuum fraction, of the strength and of the wall velocity (`BounceSolution`)

Real numbers without rounding; the integration routines of the GSL return the integral.
-/

namespace Verif.Perc

open Verif Verif.Outcome

/-! ## The false vacuum fraction -/

/-- `inner_integrand`, bounce_solution.cpp:858-863; `H` is `HubbleRate`. -/
noncomputable def innerIntegrand (H : ℝ → ℝ) (t : ℝ) : ℝ := 1 / H t

/-- `Nintegrate_Inner`, bounce_solution.cpp:875-903, from the stored temperature to `t'`. -/
noncomputable def inner (H : ℝ → ℝ) (stored t' : ℝ) : ℝ := ∫ x in stored..t', innerIntegrand H x

/-- `outer_integrand`, bounce_solution.cpp:865-873; `Γ` is `TunnelingRate`. -/
noncomputable def outerIntegrand (Γ H : ℝ → ℝ) (stored t : ℝ) : ℝ :=
  Γ t / (t ^ 4 * H t) * inner H stored t ^ 3

/-- `Nintegrate_Outer`, bounce_solution.cpp:905-932, from the stored to the critical temperature. -/
noncomputable def outer (Γ H : ℝ → ℝ) (tc stored : ℝ) : ℝ := ∫ x in stored..tc, outerIntegrand Γ H stored x

/-- `prefac * Nintegrate_Outer(*this).result` after `SetStoredTemp(t)`, bounce_solution.cpp:719-720, 732-739
and 754-755. -/
noncomputable def exponent (Γ H : ℝ → ℝ) (vwall tc t : ℝ) : ℝ :=
  4 * Real.pi / 3 * vwall ^ 3 * outer Γ H tc t

/-- `CalcFalseVacFraction`, bounce_solution.cpp:717-722. -/
noncomputable def fraction (Γ H : ℝ → ℝ) (vwall tc t : ℝ) : ℝ :=
  Bounce.falseVacFraction vwall (outer Γ H tc t)

/-- The value of `TunnelingRate` for a list of solutions that is not empty (undefined behaviour otherwise,
`C57_rate`; here 0). -/
noncomputable def rate (temps : List ℝ) (action : ℝ → ℝ) (t : ℝ) : ℝ :=
  match Bounce.tunnelingRate temps action t with
  | .ok r => r
  | _ => 0

/-! ## The strength of the transition and the wall velocity -/

/-- `rho_gam`, bounce_solution.cpp:976-977 and 1012-1013. -/
noncomputable def rhoGamma (gstar t : ℝ) : ℝ := gstar * Real.pi ^ 2 / 30 * t ^ 4

/-- `alpha`, bounce_solution.cpp:978: `vi`, `vf` are the potentials in the false and the true vacuum, `di`, `df`
their derivatives by the temperature. -/
noncomputable def strength (gstar t vi vf di df : ℝ) : ℝ :=
  1 / rhoGamma gstar t * (vi - vf - t / 4 * (di - df))

/-- `v_ChapmanJouget`, bounce_solution.cpp:1015-1017 and 1027-1029. -/
noncomputable def chapmanJouguet (cs alpha : ℝ) : ℝ :=
  1 / (1 + alpha) * (cs + Real.sqrt (alpha ^ 2 + 2 / 3 * alpha))

/-- The wall velocity for the user value -1, bounce_solution.cpp:1003-1023; `dv` is `Vi - Vf`.  A vanishing
strength makes the candidate infinite or NaN; the comparison with a Chapman–Jouguet velocity that is NaN or infinite
fails. -/
noncomputable def velocityApprox (cs gstar t alpha dv : ℝ) : Flt ℝ :=
  let q := dv / (alpha * rhoGamma gstar t)
  if alpha * rhoGamma gstar t = 0 then (if 0 < dv then .fin 1 else .nan)
  else if q < 0 then .nan
  else if alpha ^ 2 + 2 / 3 * alpha < 0 ∨ alpha = -1 then .fin (Real.sqrt q)
  else if Real.sqrt q > chapmanJouguet cs alpha then .fin 1
  else .fin (Real.sqrt q)

/-- The first term in the sum of bounce_solution.cpp:1046-1047 before it is raised to a power. -/
noncomputable def upperFirst (alpha psi : ℝ) : ℝ := |(3 * alpha + psi - 1) / (2 * (2 - 3 * psi + psi ^ 3))|

/-- The second term in the sum of bounce_solution.cpp:1048-1050 before it is raised to a power. -/
noncomputable def upperSecond (cs alpha psi : ℝ) : ℝ :=
  |chapmanJouguet cs alpha * (1 - 2233 / 10000 * (1 - psi) ^ (1704 / 1000 : ℝ) / alpha)|

/-- The wall velocity for the user value -2, bounce_solution.cpp:1024-1052, for a positive strength; `psi` is
`dTVf / dTVi`.  For `psi > 1` the power of a negative number is NaN; `psi = 1` makes the first term infinite, its
power 0; when one of the terms is 0 the sum is infinite and the velocity 0.  (`psi = -2`, where the denominator
also vanishes, is left out.) -/
noncomputable def velocityUpper (cs alpha psi : ℝ) : Flt ℝ :=
  let p : ℝ := -3433 / 1000
  if 1 < psi then .nan
  else if psi = 1 then .fin ((upperSecond cs alpha psi ^ (p / 2)) ^ (1 / p))
  else if upperFirst alpha psi = 0 ∨ upperSecond cs alpha psi = 0 then .fin 0
  else .fin ((upperFirst alpha psi ^ (p / 2) + upperSecond cs alpha psi ^ (p / 2)) ^ (1 / p))

end Verif.Perc
