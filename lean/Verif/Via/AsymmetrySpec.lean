import Mathlib.Analysis.Calculus.Deriv.Basic
import Mathlib.Data.Real.Basic

/-!
# What the baryon asymmetry means

Broken phase at negative, symmetric phase at positive positions.  The wall moves to positive positions, so
that `−v n'` is the change in time in the frame of the wall.  Weak sphalerons, with the rate `Γ`, act on the
left-handed density and wash the baryons out; they act where `active`.
-/

namespace Verif.Via.Spec

/-- A bounded steady density of baryons. -/
structure Steady (D v Γ R : ℝ) (active : Set ℝ) (nL n n' n'' : ℝ → ℝ) : Prop where
  first : ∀ z, HasDerivAt n (n' z) z
  cont : ∀ z, ContinuousAt n' z
  second : ∀ z, z ≠ 0 → HasDerivAt n' (n'' z) z
  bounded : ∃ M, ∀ z, |n z| ≤ M
  on : ∀ z, z ≠ 0 → z ∈ active → -v * n' z - D * n'' z = -Γ * (3 / 2 * nL z + R * n z)
  off : ∀ z, z ≠ 0 → z ∉ active → -v * n' z - D * n'' z = 0

/-- Sphalerons act in the symmetric phase only. -/
def symmetricOnly : Set ℝ := {z | 0 < z}

end Verif.Via.Spec
