import Verif.Outcome
import Verif.Fh.Model
import Mathlib.Analysis.SpecialFunctions.Trigonometric.DerivHyp
import Mathlib.Analysis.Calculus.Deriv.Prod
import Mathlib.Analysis.Calculus.Deriv.Comp
import Mathlib.Analysis.Calculus.FDeriv.Pi
import Mathlib.MeasureTheory.Integral.IntervalIntegral.FundThmCalculus

/-!
# The wall in the semi-classical force approach
-/

namespace Verif.Fh

open Verif Outcome

/-- `calculate_vev`, transport_equations.cpp:445-459, for a position and thickness without NaN. -/
noncomputable def calculateVev (vevCritical : List ℝ) (lw z : ℝ) : List ℝ :=
  vevCritical.map fun v => 1 / 2 * v * (1 - Real.tanh (z / lw))

/-- `calculate_vev_derivative`, transport_equations.cpp:461-472. -/
noncomputable def calculateVevDerivative (vevCritical : List ℝ) (lw z : ℝ) : List ℝ :=
  vevCritical.map fun v => 1 / 2 * v * (-(1 - Real.tanh (z / lw) * Real.tanh (z / lw)) / lw)

/-- `calculate_theta`, transport_equations.cpp:474-514, for a position and thickness without NaN.
`UseTanBetaSuppression` is a constant `false` (transport_equations.h:56); the three accesses to `vev_critical`
are made nevertheless. -/
noncomputable def calculateTheta (vevCritical : List ℝ) (sym brk lw z : ℝ) (diff : Int) : Outcome ℝ :=
  let difftheta := brk - sym
  let tanhv := Real.tanh (z / lw)
  let res := if diff = 0 then brk - 1 / 2 * difftheta * (1 + tanhv)
    else if diff = 1 then -difftheta / (2 * lw) * (1 - tanhv * tanhv)
    else if diff = 2 then difftheta * tanhv / (lw * lw) * (1 - tanhv * tanhv)
    else 0
  if vevCritical.length ≤ 7 then err .outOfRange else ok res

/-- `dmtsquared`, transport_equations.cpp:533-537: the derivatives of the squared top mass are the entries of
`topres` after the first (get_top_mass_and_derivative, 399-443). -/
noncomputable def dmtSquared (vevdiff topderivatives : List ℝ) : ℝ :=
  (List.zipWith (· * ·) vevdiff topderivatives).sum

/-- `Integrate_mubl_interpolated`, transport_equations.cpp:970-999, with `mubl_interpolation` (960-968): exact
integral of the spline `mu`. -/
noncomputable def eta (mu : ℝ → ℝ) (zmax tc vw : ℝ) : ℝ :=
  let gws := 1 / 1000000 * tc
  let nu := 45 * gws / (4 * vw)
  let gstar : ℝ := 10675 / 100
  let prefac := 405 * gws / (4 * Real.pi * Real.pi * vw * gstar * tc)
  (∫ z in (0 : ℝ)..zmax, mu z * Real.exp (-nu * z)) * prefac

/-- `generate_mubl_spline` with the `nstep` of `Integrate_mubl_interpolated`, transport_equations.cpp:936-958
and 975-976; `spline` is the interpolation of boost for values, first position and distance, `density` the
result of `mubl_func`. -/
noncomputable def etaOf (spline : List ℝ → ℝ → ℝ → ℝ → ℝ) (density : ℝ → ℝ) (zmax tc vw : ℝ) : ℝ :=
  let stepsize := (zmax - 0) / 100
  let ydata := (List.range 101).map fun i : ℕ => density (i * stepsize)
  eta (spline ydata 0 stepsize) zmax tc vw

/-- The values below `1e-16` that `calculateTransportEquation` sets to zero, transport_equations.cpp:847-853,
before `mubl_func` uses them (884-892). -/
noncomputable def mublFunc (k1t k1b : ℝ) (x : Fin 8 → ℝ) : ℝ :=
  mubl k1t k1b fun i => if |x i| ≤ 1 / 10 ^ 16 then 0 else x i

end Verif.Fh
