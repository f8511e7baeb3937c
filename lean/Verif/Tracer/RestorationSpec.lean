import Mathlib.Analysis.SpecialFunctions.Log.Basic

/-!
# A temperature that is high enough
-/

namespace Verif.Tracer.Spec

/-- The temperatures of the check: twenty per factor `e`, from 1 GeV. -/
noncomputable def temp (k : Nat) : ℝ := Real.exp (k / 20)

/-- The values at three neighbouring temperatures agree to a millionth. -/
def Settled (e : Nat → ℝ) (k : Nat) : Prop :=
  2 ≤ k ∧ |e k - e (k - 1)| < |e (k - 1)| / 10 ^ 6 ∧ |e k - e (k - 2)| < |e (k - 2)| / 10 ^ 6

/-- The smallest eigenvalue of the rescaled potential when the mass is `a` at zero temperature and grows as `b T²`. -/
noncomputable def thermalMass (a b T : ℝ) : ℝ := (a + b * T ^ 2) / (1 + T ^ 2)

end Verif.Tracer.Spec
