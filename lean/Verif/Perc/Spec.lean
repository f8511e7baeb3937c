import Mathlib.MeasureTheory.Integral.IntervalIntegral.Basic
import Mathlib.Analysis.SpecialFunctions.Exp
import Mathlib.Analysis.SpecialFunctions.Sqrt
import Mathlib.Analysis.Real.Pi.Bounds

/-!
# What the false vacuum fraction, the strength and the wall velocity should be
-/

namespace Verif.Perc.Spec

/-- The probability that a point is still in the false vacuum at the time `t`, when bubbles nucleate from the time
`tc` on with the rate `Γ(s)` per volume and time and their walls move with the velocity `v` in a universe with the scale
factor `a`: the exponent is the expected number of bubbles, the volume `4π/3 R³` of those nucleated at the time `s`
being measured with the comoving radius `R = v ∫ du / a(u)` and the comoving density `Γ a³`. -/
noncomputable def falseVacuum (Γ a : ℝ → ℝ) (v tc t : ℝ) : ℝ :=
  Real.exp (-∫ s in tc..t, Γ s * a s ^ 3 * (4 * Real.pi / 3 * (v * ∫ u in s..t, 1 / a u) ^ 3))

/-- In a universe dominated by radiation the Hubble rate at the time `s` is `1 / (2 s)`; when it is `h T²`, this is
the temperature at the time `s`. -/
noncomputable def temperatureAt (h s : ℝ) : ℝ := 1 / Real.sqrt (2 * h * s)

/-- The time at which the temperature is `x`. -/
noncomputable def timeAt (h x : ℝ) : ℝ := 1 / (2 * h * x ^ 2)

/-- A phase at the temperature `t` with the free energy density `v` and its derivative `d` by the temperature: the
pressure is `-v`, the entropy density `-d` and the energy density `t s - p`. -/
structure Phase where
  v : ℝ
  d : ℝ

namespace Phase

/-- pressure -/
def pressure (p : Phase) : ℝ := -p.v

/-- energy density -/
def energy (p : Phase) (t : ℝ) : ℝ := t * (-p.d) - p.pressure

/-- a quarter of the trace of the energy-momentum tensor -/
noncomputable def theta (p : Phase) (t : ℝ) : ℝ := (p.energy t - 3 * p.pressure) / 4

end Phase

/-- The energy density of radiation with `g` degrees of freedom. -/
noncomputable def radiation (g t : ℝ) : ℝ := Real.pi ^ 2 / 30 * g * t ^ 4

end Verif.Perc.Spec
