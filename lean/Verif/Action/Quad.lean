import Mathlib.Analysis.SpecialFunctions.Trigonometric.Basic

/-!
# The two parts of the action, src/bounce_solution/action_calculation.cpp:1473-1544 and 1756-1771
-/

namespace Verif.Action

/-- The loop of `CalculateKineticTermAction` and `CalculatePotentialTermAction`, action_calculation.cpp:1482-1489, 1496-1503,
1519-1524 and 1531-1536: `w` is the power of the radius, `g` the integrand. No result if the bound on the passes is
used up. -/
noncomputable def quadLoop (w g : ℝ → ℝ) (delta R : ℝ) : Nat → ℝ → ℝ → Option ℝ
  | 0, _, _ => none
  | n + 1, r, acc =>
    if r ≤ R then
      quadLoop w g delta R n (r + delta)
        (acc + w r * g r + 4 * w r * g (r + delta / 2) + w r * g (r + delta))
    else some acc

/-- The integral up to the last radius `R`, action_calculation.cpp:1474-1509 and 1510-1544. -/
noncomputable def quad (fuel : Nat) (alpha : ℝ) (g : ℝ → ℝ) (R : ℝ) : Option ℝ :=
  let delta := R / 2000
  if alpha = 2 then
    (quadLoop (fun r => r * r) g delta R fuel 0 0).map fun s => s * 4 * Real.pi * delta / 6
  else if alpha = 3 then
    (quadLoop (fun r => r * r * r) g delta R fuel 0 0).map fun s => s * 2 * Real.pi * Real.pi * delta / 6
  else some (-1)

/-- `CalculateKineticTermAction`; `v` is the spline of the velocity. -/
noncomputable def kineticPart (fuel : Nat) (alpha : ℝ) (v : ℝ → ℝ) (R : ℝ) : Option ℝ :=
  quad fuel alpha (fun r => 1 / 2 * v r ^ 2) R

/-- `CalculatePotentialTermAction`; `V` is the potential along the path, `l` the spline of the position. -/
noncomputable def potentialPart (fuel : Nat) (alpha : ℝ) (V l : ℝ → ℝ) (R : ℝ) : Option ℝ :=
  quad fuel alpha (fun r => V (l r)) R

/-- `KineticAction`, action_calculation.cpp:1757-1760. -/
noncomputable def kineticAction (alpha kin : ℝ) : ℝ := 2 * kin / (1 + alpha)

/-- `PotentialAction`, action_calculation.cpp:1762-1765. -/
noncomputable def potentialAction (alpha pot : ℝ) : ℝ := 2 * pot / (1 - alpha)

end Verif.Action
