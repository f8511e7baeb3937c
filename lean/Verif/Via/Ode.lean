import Mathlib.Analysis.ODE.ExistUnique
import Mathlib.Analysis.SpecialFunctions.ExpDeriv
import Mathlib.Analysis.Calculus.MeanValue
import Mathlib.Analysis.Calculus.Deriv.Pi
import Mathlib.Analysis.Calculus.Deriv.Mul
import Mathlib.LinearAlgebra.Pi
import Mathlib.LinearAlgebra.StdBasis

/-!
# Linear differential equations on an interval with a condition at its upper end
-/

namespace Verif.Via

open Set

variable {a b : ℝ}

theorem const_zero {f : ℝ → ℝ} (hf : ∀ z ∈ Icc a b, HasDerivWithinAt f 0 (Icc a b) z) (hb : f b = 0) :
    ∀ z ∈ Icc a b, f z = 0 := by
  intro z hz
  have hab : a ≤ b := hz.1.trans hz.2
  have h := constant_of_derivWithin_zero (f := f) (a := a) (b := b)
    (fun x hx => (hf x hx).differentiableWithinAt)
    (fun x hx => (hf x ⟨hx.1, hx.2.le⟩).derivWithin
      (uniqueDiffOn_Icc (hx.1.trans_lt hx.2) x ⟨hx.1, hx.2.le⟩))
  rw [h z hz, ← h b ⟨hab, le_rfl⟩, hb]

theorem decay_zero {f : ℝ → ℝ} (c : ℝ) (hf : ∀ z ∈ Icc a b, HasDerivWithinAt f (c * f z) (Icc a b) z)
    (hb : f b = 0) : ∀ z ∈ Icc a b, f z = 0 := by
  intro z hz
  have key := const_zero (a := a) (b := b) (f := fun z => f z * Real.exp (-c * z))
    (fun x hx => by
      have h1 := hf x hx
      have h2 : HasDerivWithinAt (fun z => Real.exp (-c * z)) (Real.exp (-c * x) * (-c * 1)) (Icc a b) x :=
        ((hasDerivWithinAt_id x _).const_mul (-c)).exp
      have h3 := h1.mul h2
      have e : c * f x * Real.exp (-c * x) + f x * (Real.exp (-c * x) * (-c * 1)) = 0 := by ring
      rw [e] at h3
      exact h3)
    (by simp [hb]) z hz
  exact (mul_eq_zero.1 key).resolve_right (Real.exp_ne_zero _)

/-- A density without reactions stays zero. -/
theorem free_zero {f g : ℝ → ℝ} (c : ℝ) (hf : ∀ z ∈ Icc a b, HasDerivWithinAt f (g z) (Icc a b) z)
    (hg : ∀ z ∈ Icc a b, HasDerivWithinAt g (c * g z) (Icc a b) z) (hfb : f b = 0) (hgb : g b = 0) :
    ∀ z ∈ Icc a b, f z = 0 ∧ g z = 0 := by
  have h1 := decay_zero c hg hgb
  have h2 := const_zero (a := a) (b := b) (f := f) (fun z hz => by
    have := hf z hz
    rwa [h1 z hz] at this) hfb
  exact fun z hz => ⟨h2 z hz, h1 z hz⟩

/-- The solution of a linear equation that vanishes at the upper end is zero. -/
theorem linear_zero {n : ℕ} (A : ℝ → (Fin n → ℝ) →ₗ[ℝ] (Fin n → ℝ))
    (hA : ∀ v, ContinuousOn (fun z => A z v) (Icc a b)) {f : ℝ → Fin n → ℝ}
    (hf : ∀ z ∈ Icc a b, HasDerivWithinAt f (A z (f z)) (Icc a b) z) (hb : f b = 0) :
    ∀ z ∈ Icc a b, f z = 0 := by
  have hM : ∀ j : Fin n, ∃ M, 0 ≤ M ∧ ∀ z ∈ Icc a b, ‖A z (Pi.single j 1)‖ ≤ M := by
    intro j
    obtain ⟨M, hM⟩ := (isCompact_Icc (a := a) (b := b)).exists_bound_of_continuousOn (hA (Pi.single j 1))
    exact ⟨max M 0, le_max_right _ _, fun z hz => (hM z hz).trans (le_max_left _ _)⟩
  choose M hM0 hM using hM
  have hnorm : ∀ z ∈ Icc a b, ∀ v, ‖A z v‖ ≤ (∑ j, M j) * ‖v‖ := by
    intro z hz v
    rw [LinearMap.pi_apply_eq_sum_univ (A z) v, Finset.sum_mul]
    refine (norm_sum_le _ _).trans (Finset.sum_le_sum fun j _ => ?_)
    rw [norm_smul, mul_comm]
    refine mul_le_mul ?_ (norm_le_pi_norm v j) (norm_nonneg _) (hM0 j)
    have e : (fun i : Fin n => if j = i then (1 : ℝ) else 0) = Pi.single j 1 := by
      ext i
      rw [Pi.single_apply]
      simp [eq_comm]
    rw [e]
    exact hM j z hz
  have hcont : ContinuousOn f (Icc a b) := fun z hz => (hf z hz).continuousWithinAt
  have hlip : ∀ z ∈ Ioc a b, LipschitzOnWith (Real.toNNReal (∑ j, M j)) (fun v => A z v) univ := by
    intro z hz
    rw [lipschitzOnWith_univ]
    refine LipschitzWith.of_dist_le_mul fun v w => ?_
    rw [dist_eq_norm, dist_eq_norm, ← map_sub,
      Real.coe_toNNReal _ (Finset.sum_nonneg fun j _ => hM0 j)]
    exact hnorm z ⟨hz.1.le, hz.2⟩ _
  have := ODE_solution_unique_of_mem_Icc_left (v := fun z v => A z v) (s := fun _ => univ) (f := f)
    (g := fun _ => 0) hlip hcont
    (fun z hz => by
      have h := hf z ⟨hz.1.le, hz.2⟩
      exact h.mono_of_mem_nhdsWithin (Icc_mem_nhdsLE_of_mem ⟨hz.1, hz.2⟩))
    (fun _ _ => mem_univ _) continuousOn_const
    (fun z _ => by
      have : A z ((fun _ : ℝ => (0 : Fin n → ℝ)) z) = 0 := map_zero _
      rw [this]
      exact hasDerivWithinAt_const _ _ _)
    (fun _ _ => mem_univ _) hb
  exact fun z hz => this hz

end Verif.Via
