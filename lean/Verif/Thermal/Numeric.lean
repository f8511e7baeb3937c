import Verif.Thermal.Model

/-!
# Model of the numerical thermal integrals (`ThermalFunctions.cpp`)

`gsl_integration_qags` is a parameter.
-/

namespace Verif.Thermal

/-- `JbosonNumericalIntegration`, ThermalFunctions.cpp:126-151. -/
noncomputable def bosonNumeric (integ : (ℝ → ℝ) → ℝ → ℝ → ℝ) (x : ℝ) (diff : Int) : ℝ :=
  integ (fun k => bosonIntegrand x k diff) 0 30

/-- `JfermionNumericalIntegration`, ThermalFunctions.cpp:153-178. -/
noncomputable def fermionNumeric (integ : (ℝ → ℝ) → ℝ → ℝ → ℝ) (x : ℝ) (diff : Int) : ℝ :=
  integ (fun k => fermionIntegrand x k diff) 0 30

end Verif.Thermal
