import Verif.Fh.Profile

/-!
# The integral over the driving potential without interpolation
-/

namespace Verif.Fh

/-- `eta_integrand_func`, transport_equations.cpp:904-913; `density` is `mubl_func` (807-902). -/
noncomputable def etaIntegrand (density : ℝ → ℝ) (tc vw z : ℝ) : ℝ :=
  let gws := 1 / 1000000 * tc
  let nu := 45 * gws / (4 * vw)
  let damping := Real.exp (-nu * z)
  density z * damping

/-- `Integrate_mubl`, transport_equations.cpp:915-934, with the exact integral in place of
`gsl_integration_qags`. -/
noncomputable def integrateMubl (density : ℝ → ℝ) (zmax tc vw : ℝ) : ℝ :=
  ∫ z in (0 : ℝ)..zmax, etaIntegrand density tc vw z

end Verif.Fh
