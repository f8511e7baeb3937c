import Verif.Fh.Short
import Mathlib.Tactic.Ring
import Mathlib.Tactic.FieldSimp
import Mathlib.Tactic.LinearCombination
import Mathlib.Data.Real.Basic
import Mathlib.Data.Rat.Defs
import Mathlib.Tactic.NormNum

set_option linter.unusedVariables false
set_option linter.unusedSimpArgs false

/-!
# C91: the fluid equations
-/

namespace Verif.Fh

open Spec

theorem solve2 {v k1 k4 k5 a b m u : ℝ} (h : k1 * k5 * v * v + k4 ≠ 0) :
    (v * k1 * m + u = a ∧ -k4 * m + v * k5 * u = b) ↔
      m = (v * k5 * a - b) / (k1 * k5 * v * v + k4) ∧ u = (k4 * a + v * k1 * b) / (k1 * k5 * v * v + k4) := by
  constructor
  · rintro ⟨rfl, rfl⟩
    constructor <;> rw [eq_div_iff h] <;> ring
  · rintro ⟨rfl, rfl⟩
    constructor
    · rw [mul_div_assoc', ← add_div, div_eq_iff h]; ring
    · rw [mul_div_assoc', mul_div_assoc', ← add_div, div_eq_iff h]; ring

theorem fluid_iff {v k1 k2 k4 k5 k6 dm g C s m u m' u' : ℝ} (h : k1 * k5 * v * v + k4 ≠ 0) :
    Fluid v k1 k2 k4 k5 k6 dm g C s m u m' u' ↔
      m' = (v * k5 * (C - v * k2 * dm * m) - (s - v * k6 * dm * u - g * u)) / (k1 * k5 * v * v + k4) ∧
      u' = (k4 * (C - v * k2 * dm * m) + v * k1 * (s - v * k6 * dm * u - g * u)) / (k1 * k5 * v * v + k4) := by
  rw [← solve2 h]
  unfold Fluid
  constructor
  · rintro ⟨h1, h2⟩
    exact ⟨by linear_combination h1, by linear_combination h2⟩
  · rintro ⟨h1, h2⟩
    exact ⟨by linear_combination h1, by linear_combination h2⟩

/-- With velocities, the derivatives that the program computes are the unique ones that fulfil the fluid
equations of all four kinds of particles. -/
theorem C91_velocity (c : Coeffs ℝ) (s : ℝ) (x d : Fin 8 → ℝ)
    (ht : c.k1t * c.k5t * c.vw * c.vw + c.k4t ≠ 0) (hb : c.k1b * c.k5b * c.vw * c.vw + c.k4b ≠ 0)
    (hh : c.k1h * c.k5h * c.vw * c.vw + c.k4h ≠ 0) :
    d = velocity c s x ↔
      Fluid c.vw c.k1t c.k2t c.k4t c.k5t c.k6t c.dmt2 (gTTot c) (collT (rates c) (x 0) (x 1) (x 2) (x 3))
        (s / 3) (x 0) (x 4) (d 0) (d 4) ∧
      Fluid c.vw c.k1b 0 c.k4b c.k5b 0 0 (gBTot c) (collB (rates c) (x 0) (x 1) (x 2) (x 3))
        0 (x 1) (x 5) (d 1) (d 5) ∧
      Fluid c.vw c.k1t c.k2t c.k4t c.k5t c.k6t c.dmt2 (gTTot c) (collTc (rates c) (x 0) (x 1) (x 2) (x 3))
        (s / 3) (x 2) (x 6) (d 2) (d 6) ∧
      Fluid c.vw c.k1h 0 c.k4h c.k5h 0 0 (gHTot c) (collH (rates c) (x 0) (x 1) (x 2) (x 3))
        0 (x 3) (x 7) (d 3) (d 7) := by
  rw [fluid_iff ht, fluid_iff hb, fluid_iff ht, fluid_iff hh]
  have key : (d = velocity c s x) ↔ (d 0 = velocity c s x 0 ∧ d 4 = velocity c s x 4) ∧
      (d 1 = velocity c s x 1 ∧ d 5 = velocity c s x 5) ∧ (d 2 = velocity c s x 2 ∧ d 6 = velocity c s x 6) ∧
      (d 3 = velocity c s x 3 ∧ d 7 = velocity c s x 7) := by
    constructor
    · rintro rfl; simp
    · rintro ⟨⟨h0, h4⟩, ⟨h1, h5⟩, ⟨h2, h6⟩, h3, h7⟩
      funext i
      match i with
      | 0 => exact h0
      | 1 => exact h1
      | 2 => exact h2
      | 3 => exact h3
      | 4 => exact h4
      | 5 => exact h5
      | 6 => exact h6
      | 7 => exact h7
  rw [key]
  rw [velocity_0, velocity_1, velocity_2, velocity_3, velocity_4, velocity_5, velocity_6, velocity_7]

theorem diffusion_iff {v k1 k2 k4 k6 dm g C s m m' m'' : ℝ} (h : k4 ≠ 0) :
    Diffusion v k1 k2 k4 k6 dm g C s m m' m'' ↔
      m'' = ((g + v * k6 * dm) * (C - v * k1 * m' - v * k2 * dm * m) - s) / k4 := by
  rw [eq_div_iff h]
  unfold Diffusion
  constructor
  · rintro ⟨u, h1, h2⟩
    linear_combination (g + v * k6 * dm) * h1 - h2
  · intro h1
    exact ⟨C - v * k1 * m' - v * k2 * dm * m, by ring, by linear_combination -h1⟩

/-- Without velocities, the derivatives that the program computes are the unique ones that fulfil the
diffusion equations of all four kinds of particles. -/
theorem C91_second_order (c : Coeffs ℝ) (s : ℝ) (x d : Fin 8 → ℝ) (ht : c.k4t ≠ 0) (hb : c.k4b ≠ 0)
    (hh : c.k4h ≠ 0) :
    d = second c s x ↔ (d 0 = x 4 ∧ d 1 = x 5 ∧ d 2 = x 6 ∧ d 3 = x 7) ∧
      Diffusion c.vw c.k1t c.k2t c.k4t c.k6t c.dmt2 (gTTot c) (collT (rates c) (x 0) (x 1) (x 2) (x 3))
        (s / 3) (x 0) (x 4) (d 4) ∧
      Diffusion c.vw c.k1b 0 c.k4b 0 0 (gBTot c) (collB (rates c) (x 0) (x 1) (x 2) (x 3))
        0 (x 1) (x 5) (d 5) ∧
      Diffusion c.vw c.k1t c.k2t c.k4t c.k6t c.dmt2 (gTTot c) (collTc (rates c) (x 0) (x 1) (x 2) (x 3))
        (s / 3) (x 2) (x 6) (d 6) ∧
      Diffusion c.vw c.k1h 0 c.k4h 0 0 (gHTot c) (collH (rates c) (x 0) (x 1) (x 2) (x 3))
        0 (x 3) (x 7) (d 7) := by
  rw [diffusion_iff ht, diffusion_iff hb, diffusion_iff ht, diffusion_iff hh]
  have key : (d = second c s x) ↔ (d 0 = second c s x 0 ∧ d 1 = second c s x 1 ∧ d 2 = second c s x 2 ∧
      d 3 = second c s x 3) ∧ d 4 = second c s x 4 ∧ d 5 = second c s x 5 ∧ d 6 = second c s x 6 ∧
      d 7 = second c s x 7 := by
    constructor
    · rintro rfl; simp
    · rintro ⟨⟨h0, h1, h2, h3⟩, h4, h5, h6, h7⟩
      funext i
      match i with
      | 0 => exact h0
      | 1 => exact h1
      | 2 => exact h2
      | 3 => exact h3
      | 4 => exact h4
      | 5 => exact h5
      | 6 => exact h6
      | 7 => exact h7
  rw [key]
  rw [second_4, second_5, second_6, second_7]
  rfl

/-- Yukawa, mass and W reactions conserve baryon number; strong sphalerons create one unit in the heavy quarks,
which the light ones balance.  The Higgs bosons take part in the Yukawa reactions with their share. -/
theorem C91_conserved (r : Spec.Rates ℝ) (t b tc h : ℝ) :
    collT r t b tc h + collB r t b tc h - collTc r t b tc h = r.gSS * sphaleron r t b tc ∧
    4 * (collH r t b tc h - r.gH * h) =
      3 * (collTc r t b tc h - 2 * r.gM * (t + tc) - r.gSS * sphaleron r t b tc) := by
  simp only [collT, collB, collTc, collH]
  constructor <;> ring

/-- The chemical potential that drives the weak sphalerons counts the left-handed quarks of all three
generations. -/
theorem C91_mubl (r : Spec.Rates ℝ) (x : Fin 8 → ℝ) :
    mubl r.k1t r.k1b x = leftHanded r (x 0) (x 1) (x 2) := by
  simp only [mubl, leftHanded, light]
  ring

/-- Without CP violation there is no source; the source is linear in the derivatives of the phase. -/
theorem C91_source (c : Coeffs ℝ) :
    (st c 0 0 = 0 ∧ dst c 0 0 = 0) ∧
    ∀ a d d2 d' d2', st c (d + a * d') (d2 + a * d2') = st c d d2 + a * st c d' d2' ∧
      dst c (d + a * d') (d2 + a * d2') = dst c d d2 + a * dst c d' d2' := by
  simp only [st, dst]
  refine ⟨⟨by ring, by ring⟩, fun a d d2 d' d2' => ⟨by ring, by ring⟩⟩

example : ∃ c : Coeffs ℝ, c.k1t * c.k5t * c.vw * c.vw + c.k4t ≠ 0 ∧
    c.k1b * c.k5b * c.vw * c.vw + c.k4b ≠ 0 ∧ c.k1h * c.k5h * c.vw * c.vw + c.k4h ≠ 0 ∧ c.k4t ≠ 0 ∧ c.k4b ≠ 0 ∧
    c.k4h ≠ 0 ∧ st c 1 1 ≠ 0 :=
  ⟨⟨1, 1, 1, 1, 1, 1, 1, 1, 1, 1, 1, 1, 1, 2, 3, 1, 100, 1 / 10⟩, by norm_num [st]⟩

end Verif.Fh
