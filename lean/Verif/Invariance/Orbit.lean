import Verif.Invariance.Props

/-!
# Every gauge orbit meets the directions of the vacuum expectation values

The fields outside the directions that the minimiser varies can be rotated away.
-/

set_option linter.unusedSimpArgs false

namespace Verif.Invariance

open Verif.Lagrangian Verif.Lagrangian.Spec

/-- Some rotation makes the imaginary part vanish. -/
theorem phase (x y : ℝ) : ∃ θ : ℝ, Real.sin θ * x + Real.cos θ * y = 0 := by
  refine ⟨-Complex.arg ⟨x, y⟩, ?_⟩
  have h1 := Complex.norm_mul_cos_arg ⟨x, y⟩
  have h2 := Complex.norm_mul_sin_arg ⟨x, y⟩
  simp only at h1 h2
  rw [Real.sin_neg, Real.cos_neg]
  generalize Real.cos (Complex.arg ⟨x, y⟩) = c at *
  generalize Real.sin (Complex.arg ⟨x, y⟩) = s at *
  generalize ‖(⟨x, y⟩ : ℂ)‖ = r at *
  rw [← h1, ← h2]
  ring

/-- The same with the angle halved. -/
theorem half_phase (x y : ℝ) : ∃ θ : ℝ,
    2 * Real.sin θ * Real.cos θ * x + (Real.cos θ ^ 2 - Real.sin θ ^ 2) * y = 0 := by
  obtain ⟨θ, h⟩ := phase x y
  refine ⟨θ / 2, ?_⟩
  rw [← Real.sin_two_mul, ← Real.cos_two_mul', mul_div_cancel₀ _ (two_ne_zero)]
  exact h

/-! ### Two doublets -/

namespace TwoDoublets

open Verif.Lagrangian.TwoDoublets

/-- The charged components alone can be multiplied by a phase. -/
theorem charged_phase (θ : ℝ) (φ : Fin 8 → ℝ) (k : Fin 8) :
    rotate (generator 3) θ (rotate (generator 2) θ φ) k =
      ![(Real.cos θ ^ 2 - Real.sin θ ^ 2) * φ 0 - 2 * Real.sin θ * Real.cos θ * φ 1,
        2 * Real.sin θ * Real.cos θ * φ 0 + (Real.cos θ ^ 2 - Real.sin θ ^ 2) * φ 1,
        (Real.cos θ ^ 2 - Real.sin θ ^ 2) * φ 2 - 2 * Real.sin θ * Real.cos θ * φ 3,
        2 * Real.sin θ * Real.cos θ * φ 2 + (Real.cos θ ^ 2 - Real.sin θ ^ 2) * φ 3,
        φ 4, φ 5, φ 6, φ 7] k := by
  have h := Real.sin_sq_add_cos_sq θ
  simp only [rotate_eq, generator_apply]
  fin_cases k <;> simp [rotate_eq, generator_apply]
  · ring
  · ring
  · ring
  · ring
  · linear_combination φ 4 * h
  · linear_combination φ 5 * h
  · linear_combination φ 6 * h
  · linear_combination φ 7 * h

/-- The fields of the first doublet other than the real part of the neutral component, and the imaginary
part of the charged component of the second doublet, can be rotated away. -/
theorem orbit (φ : Fin 8 → ℝ) : ∃ ψ : Fin 8 → ℝ, ψ 0 = 0 ∧ ψ 1 = 0 ∧ ψ 3 = 0 ∧ ψ 5 = 0 ∧
    ∀ W : (Fin 8 → ℝ) → ℝ, GaugeInvariant W → W ψ = W φ := by
  -- the neutral component of the first doublet becomes real
  obtain ⟨a, ha⟩ := phase (φ 4) (φ 5)
  set φ1 := rotate (generator 3) a φ with e1
  have h15 : φ1 5 = 0 := by
    rw [e1, rotate_eq, generator_apply]
    simpa [add_comm] using ha
  -- the charged component as well
  obtain ⟨b, hb⟩ := half_phase (φ1 0) (φ1 1)
  set φ2 := rotate (generator 3) b (rotate (generator 2) b φ1) with e2
  have h2 := charged_phase b φ1
  rw [← e2] at h2
  have h21 : φ2 1 = 0 := (h2 1).trans hb
  have h25 : φ2 5 = 0 := (h2 5).trans h15
  -- the real rotation
  obtain ⟨c, hc⟩ := phase (φ2 4) (φ2 0)
  set φ3 := rotate (generator 1) c φ2 with e3
  have h3 : ∀ k, φ3 k = _ := fun k => by rw [e3, rotate_eq, generator_apply]
  have h30 : φ3 0 = 0 := by
    rw [h3 0]
    simpa [add_comm] using hc
  have h31 : φ3 1 = 0 := by
    rw [h3 1]
    simp [h21, h25]
  have h35 : φ3 5 = 0 := by
    rw [h3 5]
    simp [h21, h25]
  -- the phase of the charged component of the second doublet
  obtain ⟨d, hd⟩ := half_phase (φ3 2) (φ3 3)
  have h4 := charged_phase d φ3
  refine ⟨rotate (generator 3) d (rotate (generator 2) d φ3), ?_, ?_, ?_, ?_, fun W hW => ?_⟩
  · rw [h4 0]
    simp [h30, h31]
  · rw [h4 1]
    simp [h30, h31]
  · exact (h4 3).trans hd
  · exact (h4 5).trans h35
  · rw [hW, hW, e3, hW, e2, hW, hW, e1, hW]

/-- The same with a singlet. -/
theorem orbit_singlet {σ : Fin 8 → Fin 9} {π : Fin 9 → Fin 8} (ho : Singlet.Order σ π) (φ : Fin 9 → ℝ) :
    ∃ ψ : Fin 9 → ℝ, ψ (σ 0) = 0 ∧ ψ (σ 1) = 0 ∧ ψ (σ 3) = 0 ∧ ψ (σ 5) = 0 ∧ ψ 8 = φ 8 ∧
      ∀ W : (Fin 9 → ℝ) → ℝ, Singlet.GaugeInvariant π W → W ψ = W φ := by
  obtain ⟨ψ, h0, h1, h3, h5, hW⟩ := orbit fun i => φ (σ i)
  have e : ∀ i, Singlet.place π (φ 8) ψ (σ i) = ψ i := fun i => by
    rw [Singlet.place, if_neg (ho.ne i), ho.left]
  refine ⟨Singlet.place π (φ 8) ψ, (e 0).trans h0, (e 1).trans h1, (e 3).trans h3, (e 5).trans h5, rfl,
    fun W h => ?_⟩
  refine (hW _ (h (φ 8))).trans (congrArg W (funext fun k => ?_))
  by_cases hk : k = 8
  · rw [hk]
    rfl
  · rw [Singlet.place, if_neg hk, ho.right k hk]

end TwoDoublets

/-! ### One doublet -/

/-- Standard model: everything but the real part of the neutral component can be rotated away. -/
theorem SM.orbit (φ : Fin 4 → ℝ) : ∃ ψ : Fin 4 → ℝ, ψ 0 = 0 ∧ ψ 1 = 0 ∧ ψ 3 = 0 ∧
    ∀ W : (Fin 4 → ℝ) → ℝ, SM.GaugeInvariant W → W ψ = W φ := by
  obtain ⟨a, ha⟩ := phase (φ 2) (φ 3)
  set φ1 := rotate (SM.generator 3) a φ with e1
  have h13 : φ1 3 = 0 := by
    rw [e1, rotate_apply, SM.generator_apply, SM.generator_apply]
    simp
    linear_combination ha
  obtain ⟨b, hb⟩ := half_phase (φ1 0) (φ1 1)
  set φ2 := rotate (SM.generator 3) b (rotate (SM.generator 2) b φ1) with e2
  have h21 : φ2 1 = 0 := by
    rw [e2]
    simp [rotate_apply, SM.generator_apply]
    linear_combination hb
  have h23 : φ2 3 = 0 := by
    rw [e2]
    simp [rotate_apply, SM.generator_apply, h13]
    ring
  obtain ⟨c, hc⟩ := phase (φ2 2) (φ2 0)
  refine ⟨rotate (SM.generator 1) c φ2, ?_, ?_, ?_, fun W hW => ?_⟩
  · simp [rotate_apply, SM.generator_apply]
    linear_combination hc
  · simp [rotate_apply, SM.generator_apply, h21, h23]
  · simp [rotate_apply, SM.generator_apply, h21, h23]
  · rw [hW, e2, hW, hW, e1, hW]

/-- Standard model with a complex singlet: the same. -/
theorem CxSM.orbit (φ : Fin 6 → ℝ) : ∃ ψ : Fin 6 → ℝ, ψ 0 = 0 ∧ ψ 1 = 0 ∧ ψ 2 = 0 ∧ ψ 4 = φ 4 ∧ ψ 5 = φ 5 ∧
    ∀ W : (Fin 6 → ℝ) → ℝ, CxSM.GaugeInvariant W → W ψ = W φ := by
  obtain ⟨a, ha⟩ := phase (φ 3) (φ 2)
  set φ1 := rotate (CxSM.generator 3) a φ with e1
  have h12 : φ1 2 = 0 := by
    rw [e1, rotate_apply, CxSM.generator_apply, CxSM.generator_apply]
    simp
    linear_combination ha
  have h14 : φ1 4 = φ 4 ∧ φ1 5 = φ 5 := by
    rw [e1]
    simp [rotate_apply, CxSM.generator_apply]
  obtain ⟨b, hb⟩ := half_phase (φ1 0) (φ1 1)
  set φ2 := rotate (CxSM.generator 3) b (rotate (CxSM.generator 2) b φ1) with e2
  have h21 : φ2 1 = 0 := by
    rw [e2]
    simp [rotate_apply, CxSM.generator_apply]
    linear_combination hb
  have h22 : φ2 2 = 0 := by
    rw [e2]
    simp [rotate_apply, CxSM.generator_apply, h12]
    ring
  have h24 : φ2 4 = φ 4 ∧ φ2 5 = φ 5 := by
    rw [e2]
    simp [rotate_apply, CxSM.generator_apply, h14]
  obtain ⟨c, hc⟩ := phase (φ2 3) (φ2 0)
  refine ⟨rotate (CxSM.generator 1) c φ2, ?_, ?_, ?_, ?_, ?_, fun W hW => ?_⟩
  · simp [rotate_apply, CxSM.generator_apply]
    linear_combination hc
  · simp [rotate_apply, CxSM.generator_apply, h21, h22]
  · simp [rotate_apply, CxSM.generator_apply, h21, h22]
  · simp [rotate_apply, CxSM.generator_apply, h24]
  · simp [rotate_apply, CxSM.generator_apply, h24]
  · rw [hW, e2, hW, hW, e1, hW]

end Verif.Invariance
