import Mathlib.Analysis.Complex.Basic
import Mathlib.Analysis.Calculus.Deriv.Basic

/-!
# Thermal widths, masses and the integrals of the VEV insertion approximation

Two fermions `L` and `R` with energies `ω_L = w + d` and `ω_R = w` and the width `g` have the complex energies
`E = ω - i g`.  The rates are integrals over the momentum `k`.  The distribution functions are replaced by their first
derivative at `w`.
-/

namespace Verif.Via.Spec

open Complex

/-- The complex energy of `L`. -/
noncomputable def energyL (w g d : ℝ) : ℂ := (w + d : ℝ) - g * I

/-- The complex energy of `R`. -/
noncomputable def energyR (w g : ℝ) : ℂ := (w : ℂ) - g * I

/-- The integrand of the CP-violating source for a distribution with value `n` and derivative `n'` at `w`. -/
noncomputable def source (k n n' w g d : ℝ) : ℝ :=
  let EL := energyL w g d
  let ER := energyR w g
  let ER' : ℂ := w + g * I
  let f : ℂ → ℂ := fun E => n + n' * (E - w)
  k ^ 2 / ((w + d) * w) *
    ((f EL - f ER') / (EL - ER') ^ 2 * (EL * ER' - k ^ 2) + (f EL + f ER - 1) / (EL + ER) ^ 2 * (EL * ER + k ^ 2)).im

/-- The integrand of the relaxation rate of the difference of both densities; `h` is the derivative of the distribution
with respect to the chemical potential. -/
noncomputable def relaxation (k h w g d : ℝ) : ℝ :=
  let EL := energyL w g d
  let ER := energyR w g
  let ER' : ℂ := w + g * I
  k ^ 2 / ((w + d) * w) *
    ((h + h) / (EL - ER') * (EL * ER' - k ^ 2) + (h + h) / (EL + ER) * (EL * ER + k ^ 2)).im

/-- `L₀(g) + d L₁(g)` is `f(g, d)` to first order in the difference `d` and up to the first order in the width `g`. -/
def IsExpansion (f : ℝ → ℝ → ℝ) (L₀ L₁ : ℝ → ℝ) : Prop :=
  ∃ f₁ : ℝ → ℝ, (∀ g, 0 < g → HasDerivAt (f g) (f₁ g) 0) ∧
    Filter.Tendsto (fun g => (f g 0 - L₀ g) / g) (nhdsWithin 0 (Set.Ioi 0)) (nhds 0) ∧
    Filter.Tendsto (fun g => (f₁ g - L₁ g) / g) (nhdsWithin 0 (Set.Ioi 0)) (nhds 0)

/-- The squared thermal mass of a fermion in units of the squared temperature: hypercharge `Y` (with `Q = T₃ + Y`),
SU(2) doublet or singlet, colour triplet or singlet, and the sum of the squared Yukawa couplings weighted with the
number of partners. -/
noncomputable def thermal (gY gW gS Y : ℝ) (doublet colour : Bool) (y2 : ℝ) : ℝ :=
  gY ^ 2 * Y ^ 2 / 8 + (if doublet then gW ^ 2 * (3 / 4) / 8 else 0) + (if colour then gS ^ 2 * (4 / 3) / 8 else 0) +
    y2 / 16

/-- The mass of the right-handed fermion, which couples to both partners in the doublet. -/
noncomputable def right (gY gW gS Y : ℝ) (colour : Bool) (y : ℝ) : ℝ := thermal gY gW gS Y false colour (2 * y ^ 2)

/-- The mass of the left-handed fermion. -/
noncomputable def left (gY gW gS Y : ℝ) (colour : Bool) (y : ℝ) : ℝ := thermal gY gW gS Y true colour (y ^ 2)

end Verif.Via.Spec
