import Mathlib.Analysis.Calculus.Deriv.Basic
import Mathlib.Analysis.SpecialFunctions.Exp
import Mathlib.Analysis.SpecialFunctions.Sqrt
import Mathlib.MeasureTheory.Constructions.Pi
import Mathlib.MeasureTheory.Measure.Lebesgue.Basic
import Mathlib.MeasureTheory.Integral.Bochner.Set

/-!
# The functions `K` of hep-ph/0604159

Equations (13), (22) and (23): distributions, averages and functions.
-/

namespace Verif.Kfactors.Spec

open Real MeasureTheory

/-- The distribution of particles with energy `E`: fermions for `s = 1` and bosons for `s = -1`. -/
noncomputable def distribution (s T E : ℝ) : ℝ := 1 / (exp (E / T) + s)

/-- Its derivatives with respect to the energy. -/
noncomputable def d (s T E : ℝ) : ℝ := deriv (distribution s T) E

noncomputable def dd (s T E : ℝ) : ℝ := deriv (d s T) E

/-- The energy of a particle, and that of a particle with the same momentum along the wall only. -/
noncomputable def energy (m2 : ℝ) (p : Fin 3 → ℝ) : ℝ := √ (p 0 ^ 2 + p 1 ^ 2 + p 2 ^ 2 + m2)

noncomputable def energyZ (m2 : ℝ) (p : Fin 3 → ℝ) : ℝ := √ (p 2 ^ 2 + m2)

/-- The functions of which averages are taken in equation (23); the `z` direction is that of the index 2. -/
noncomputable def X (s T m2 : ℝ) : ℤ → (Fin 3 → ℝ) → ℝ
  | 1, p => -(p 2 ^ 2 / energy m2 p * dd s T (energy m2 p))
  | 2, p => dd s T (energy m2 p) / (2 * energy m2 p)
  | 3, p => d s T (energy m2 p) / (2 * energy m2 p)
  | 4, p => p 2 ^ 2 / energy m2 p ^ 2 * d s T (energy m2 p)
  | 5, p => p 2 ^ 2 / energy m2 p * d s T (energy m2 p)
  | 6, p => (energy m2 p ^ 2 - p 2 ^ 2) / (2 * energy m2 p ^ 3) * d s T (energy m2 p)
  | 7, p => |p 2| / (2 * energy m2 p ^ 2 * energyZ m2 p) * (d s T (energy m2 p) / energy m2 p - dd s T (energy m2 p))
  | 8, p => |p 2| * d s T (energy m2 p) / (2 * energy m2 p ^ 2 * energyZ m2 p)
  | 9, p => |p 2| / (4 * energy m2 p ^ 3 * energyZ m2 p) * (d s T (energy m2 p) / energy m2 p - dd s T (energy m2 p))
  | 10, p => |p 2| * distribution s T (energy m2 p) / (2 * energy m2 p ^ 3 * energyZ m2 p)
  | _, _ => 0

/-- `⟨f⟩`: the norm is that of massless fermions. -/
noncomputable def angle (T : ℝ) (f : (Fin 3 → ℝ) → ℝ) : ℝ := (∫ p, f p) / ∫ p : Fin 3 → ℝ, d 1 T (energy 0 p)

/-- `[f]`: the norm is the number of the particles themselves. -/
noncomputable def square (s T m2 : ℝ) (f : (Fin 3 → ℝ) → ℝ) : ℝ :=
  (∫ p, f p) / ∫ p : Fin 3 → ℝ, distribution s T (energy m2 p)

/-- The functions with tilde are those with square brackets. -/
noncomputable def K (s T m2 : ℝ) (i : ℤ) : ℝ :=
  if i = 5 ∨ i = 6 ∨ i = 10 then square s T m2 (X s T m2 i) else angle T (X s T m2 i)

/-- The momenta with components up to `L`. -/
def box (L : ℝ) : Set (Fin 3 → ℝ) := Set.Icc (fun _ => -L) (fun _ => L)

end Verif.Kfactors.Spec
