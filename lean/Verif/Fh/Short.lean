import Verif.Fh.Model
import Verif.Fh.Spec
import Mathlib.Data.Real.Basic
import Mathlib.Tactic.Ring

set_option linter.unusedSimpArgs false

/-!
# The derivatives in terms of reactions
-/

namespace Verif.Fh

open Spec

/-- The rates of the program. -/
noncomputable def rates (c : Coeffs ℝ) : Spec.Rates ℝ := ⟨gY c, gM c, gW c, gH c, gSS c, c.k1t, c.k1b⟩

theorem velocity_0 (c : Coeffs ℝ) (s : ℝ) (x : Fin 8 → ℝ) :
    velocity c s x 0 = (c.vw * c.k5t * (collT (rates c) (x 0) (x 1) (x 2) (x 3) -
      c.vw * c.k2t * c.dmt2 * x 0) - (s / 3 - c.vw * c.k6t * c.dmt2 * x 4 - gTTot c * x 4)) /
      (c.k1t * c.k5t * c.vw * c.vw + c.k4t) := by
  simp only [velocity, Matrix.cons_val, collT, sphaleron, light, rates]; ring

theorem velocity_4 (c : Coeffs ℝ) (s : ℝ) (x : Fin 8 → ℝ) :
    velocity c s x 4 = (c.k4t * (collT (rates c) (x 0) (x 1) (x 2) (x 3) -
      c.vw * c.k2t * c.dmt2 * x 0) + c.vw * c.k1t * (s / 3 - c.vw * c.k6t * c.dmt2 * x 4 - gTTot c * x 4)) /
      (c.k1t * c.k5t * c.vw * c.vw + c.k4t) := by
  simp only [velocity, Matrix.cons_val, collT, sphaleron, light, rates]; ring

theorem velocity_1 (c : Coeffs ℝ) (s : ℝ) (x : Fin 8 → ℝ) :
    velocity c s x 1 = (c.vw * c.k5b * (collB (rates c) (x 0) (x 1) (x 2) (x 3) -
      c.vw * 0 * 0 * x 1) - (0 - c.vw * 0 * 0 * x 5 - gBTot c * x 5)) /
      (c.k1b * c.k5b * c.vw * c.vw + c.k4b) := by
  simp only [velocity, Matrix.cons_val, collB, sphaleron, light, rates]; ring

theorem velocity_5 (c : Coeffs ℝ) (s : ℝ) (x : Fin 8 → ℝ) :
    velocity c s x 5 = (c.k4b * (collB (rates c) (x 0) (x 1) (x 2) (x 3) -
      c.vw * 0 * 0 * x 1) + c.vw * c.k1b * (0 - c.vw * 0 * 0 * x 5 - gBTot c * x 5)) /
      (c.k1b * c.k5b * c.vw * c.vw + c.k4b) := by
  simp only [velocity, Matrix.cons_val, collB, sphaleron, light, rates]; ring

theorem velocity_2 (c : Coeffs ℝ) (s : ℝ) (x : Fin 8 → ℝ) :
    velocity c s x 2 = (c.vw * c.k5t * (collTc (rates c) (x 0) (x 1) (x 2) (x 3) -
      c.vw * c.k2t * c.dmt2 * x 2) - (s / 3 - c.vw * c.k6t * c.dmt2 * x 6 - gTTot c * x 6)) /
      (c.k1t * c.k5t * c.vw * c.vw + c.k4t) := by
  simp only [velocity, Matrix.cons_val, collTc, sphaleron, light, rates]; ring

theorem velocity_6 (c : Coeffs ℝ) (s : ℝ) (x : Fin 8 → ℝ) :
    velocity c s x 6 = (c.k4t * (collTc (rates c) (x 0) (x 1) (x 2) (x 3) -
      c.vw * c.k2t * c.dmt2 * x 2) + c.vw * c.k1t * (s / 3 - c.vw * c.k6t * c.dmt2 * x 6 - gTTot c * x 6)) /
      (c.k1t * c.k5t * c.vw * c.vw + c.k4t) := by
  simp only [velocity, Matrix.cons_val, collTc, sphaleron, light, rates]; ring

theorem velocity_3 (c : Coeffs ℝ) (s : ℝ) (x : Fin 8 → ℝ) :
    velocity c s x 3 = (c.vw * c.k5h * (collH (rates c) (x 0) (x 1) (x 2) (x 3) -
      c.vw * 0 * 0 * x 3) - (0 - c.vw * 0 * 0 * x 7 - gHTot c * x 7)) /
      (c.k1h * c.k5h * c.vw * c.vw + c.k4h) := by
  simp only [velocity, Matrix.cons_val, collH, sphaleron, light, rates]; ring

theorem velocity_7 (c : Coeffs ℝ) (s : ℝ) (x : Fin 8 → ℝ) :
    velocity c s x 7 = (c.k4h * (collH (rates c) (x 0) (x 1) (x 2) (x 3) -
      c.vw * 0 * 0 * x 3) + c.vw * c.k1h * (0 - c.vw * 0 * 0 * x 7 - gHTot c * x 7)) /
      (c.k1h * c.k5h * c.vw * c.vw + c.k4h) := by
  simp only [velocity, Matrix.cons_val, collH, sphaleron, light, rates]; ring

theorem second_4 (c : Coeffs ℝ) (s : ℝ) (x : Fin 8 → ℝ) :
    second c s x 4 = ((gTTot c + c.vw * c.k6t * c.dmt2) * (collT (rates c) (x 0) (x 1) (x 2) (x 3) -
      c.vw * c.k1t * x 4 - c.vw * c.k2t * c.dmt2 * x 0) - s / 3) / c.k4t := by
  simp only [second, Matrix.cons_val, collT, sphaleron, light, rates]; ring

theorem second_5 (c : Coeffs ℝ) (s : ℝ) (x : Fin 8 → ℝ) :
    second c s x 5 = ((gBTot c + c.vw * 0 * 0) * (collB (rates c) (x 0) (x 1) (x 2) (x 3) -
      c.vw * c.k1b * x 5 - c.vw * 0 * 0 * x 1) - 0) / c.k4b := by
  simp only [second, Matrix.cons_val, collB, sphaleron, light, rates]; ring

theorem second_6 (c : Coeffs ℝ) (s : ℝ) (x : Fin 8 → ℝ) :
    second c s x 6 = ((gTTot c + c.vw * c.k6t * c.dmt2) * (collTc (rates c) (x 0) (x 1) (x 2) (x 3) -
      c.vw * c.k1t * x 6 - c.vw * c.k2t * c.dmt2 * x 2) - s / 3) / c.k4t := by
  simp only [second, Matrix.cons_val, collTc, sphaleron, light, rates]; ring

theorem second_7 (c : Coeffs ℝ) (s : ℝ) (x : Fin 8 → ℝ) :
    second c s x 7 = ((gHTot c + c.vw * 0 * 0) * (collH (rates c) (x 0) (x 1) (x 2) (x 3) -
      c.vw * c.k1h * x 7 - c.vw * 0 * 0 * x 3) - 0) / c.k4h := by
  simp only [second, Matrix.cons_val, collH, sphaleron, light, rates]; ring

end Verif.Fh
