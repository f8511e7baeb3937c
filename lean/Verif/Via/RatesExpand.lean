import Verif.Via.RatesLemmas
import Mathlib.Analysis.Calculus.Deriv.Mul
import Mathlib.Analysis.Calculus.Deriv.Add
import Mathlib.Topology.Order.Real

/-!
# The expansion of the integrands
-/

namespace Verif.Via

open Spec Filter Topology

/-- A function that continues to zero. -/
theorem tendsto_of_continuous {F G : ℝ → ℝ} (h : ∀ g, 0 < g → F g = G g) (hc : ContinuousAt G 0) (h0 : G 0 = 0) :
    Tendsto F (nhdsWithin 0 (Set.Ioi 0)) (nhds 0) := by
  have h1 : Tendsto G (nhdsWithin 0 (Set.Ioi 0)) (nhds 0) := by
    have := hc.tendsto
    rw [h0] at this
    exact this.mono_left nhdsWithin_le_nhds
  refine h1.congr' ?_
  filter_upwards [self_mem_nhdsWithin] with g hg
  exact (h g hg).symm

theorem id_deriv (x : ℝ) : HasDerivAt (fun d : ℝ => d) 1 x := hasDerivAt_id' x

/-- The common factor. -/
theorem factor_deriv (k w : ℝ) (hw : w ≠ 0) :
    HasDerivAt (fun d => k ^ 2 / ((w + d) * w)) (-(k ^ 2 / w ^ 3)) 0 := by
  have h1 : HasDerivAt (fun d => (w + d) * w) w 0 := by
    simpa using ((id_deriv 0).const_add w).mul_const w
  have h2 := (hasDerivAt_const (0 : ℝ) (k ^ 2)).fun_div h1 (by simpa using hw)
  refine HasDerivAt.congr_deriv h2 ?_
  rw [add_zero]
  field_simp
  ring

/-- `d² + 4g²`. -/
theorem low_deriv (g : ℝ) (hg : g ≠ 0) : HasDerivAt (fun d : ℝ => (d ^ 2 + (2 * g) ^ 2)⁻¹) 0 0 := by
  have h1 : HasDerivAt (fun d : ℝ => d ^ 2 + (2 * g) ^ 2) 0 0 := by
    simpa using ((id_deriv 0).fun_pow 2).add_const ((2 * g) ^ 2)
  have h2 := h1.fun_inv (by simpa using hg)
  refine HasDerivAt.congr_deriv h2 ?_
  simp

/-- `(2w + d)² + 4g²`. -/
theorem high_deriv (w g : ℝ) (hw : w ≠ 0) :
    HasDerivAt (fun d : ℝ => ((2 * w + d) ^ 2 + (2 * g) ^ 2)⁻¹) (-(w / (4 * (w ^ 2 + g ^ 2) ^ 2))) 0 := by
  have hp : 0 < w ^ 2 + g ^ 2 := by positivity
  have h1 : HasDerivAt (fun d : ℝ => (2 * w + d) ^ 2 + (2 * g) ^ 2) (4 * w) 0 := by
    refine HasDerivAt.congr_deriv ((((id_deriv 0).const_add (2 * w)).fun_pow 2).add_const ((2 * g) ^ 2)) ?_
    simp; ring
  have : (2 * w + 0) ^ 2 + (2 * g) ^ 2 = 4 * (w ^ 2 + g ^ 2) := by ring
  have h2 := h1.fun_inv (by rw [this]; positivity)
  refine HasDerivAt.congr_deriv h2 ?_
  rw [this]
  field_simp

theorem lin_deriv (a b : ℝ) : HasDerivAt (fun d : ℝ => a + d * b) b 0 := by
  simpa using ((id_deriv 0).mul_const b).const_add a

variable (k h n n' w : ℝ)

/-- The relaxation rate to first order in the difference of energies and in the width. -/
theorem relaxation_expansion (hw : 0 < w) :
    IsExpansion (relaxation k h w) (fun g => h * (k ^ 2 / g - k ^ 4 / (w ^ 2 * g) + k ^ 4 * g / w ^ 4))
      (fun g => h * (k ^ 4 / (w ^ 3 * g) - 2 * k ^ 4 * g / w ^ 5)) := by
  have hreal : ∀ g, 0 < g → relaxation k h w g = fun d => k ^ 2 / ((w + d) * w) *
      (2 * h * (2 * g * (w ^ 2 + d * w + g ^ 2 - k ^ 2) + g * d ^ 2) * (d ^ 2 + (2 * g) ^ 2)⁻¹ +
        2 * h * (2 * g * (w * (w + d) - g ^ 2 + k ^ 2) - (2 * w + d) * (g * (2 * w + d))) *
          ((2 * w + d) ^ 2 + (2 * g) ^ 2)⁻¹) := fun g hg => funext fun d =>
    relaxation_real k h w g d hg (by positivity)
  refine ⟨fun g => k ^ 2 * ((h * w / g - h * g * w * k ^ 2 / (w ^ 2 + g ^ 2) ^ 2) / w ^ 2 -
    (h * (w ^ 2 + g ^ 2 - k ^ 2) / g + h * g * (k ^ 2 - w ^ 2 - g ^ 2) / (w ^ 2 + g ^ 2)) / w ^ 3), ?_, ?_, ?_⟩
  · intro g hg
    have hp : 0 < w ^ 2 + g ^ 2 := by positivity
    rw [hreal g hg]
    have hA : HasDerivAt (fun d : ℝ => 2 * h * (2 * g * (w ^ 2 + d * w + g ^ 2 - k ^ 2) + g * d ^ 2))
        (2 * h * (2 * g * w)) 0 := by
      refine HasDerivAt.congr_deriv (HasDerivAt.const_mul (2 * h) (HasDerivAt.fun_add (HasDerivAt.const_mul (2 * g)
        (((lin_deriv (w ^ 2) w).add_const (g ^ 2)).sub_const (k ^ 2))) (((id_deriv 0).fun_pow 2).const_mul g))) ?_
      simp
    have hB : HasDerivAt (fun d : ℝ => 2 * h * (2 * g * (w * (w + d) - g ^ 2 + k ^ 2) -
        (2 * w + d) * (g * (2 * w + d)))) (2 * h * (2 * g * w - 4 * g * w)) 0 := by
      refine HasDerivAt.congr_deriv (HasDerivAt.const_mul (2 * h) (HasDerivAt.fun_sub (HasDerivAt.const_mul (2 * g)
        (((((id_deriv 0).const_add w).const_mul w).sub_const (g ^ 2)).add_const (k ^ 2)))
        (((id_deriv 0).const_add (2 * w)).fun_mul (((id_deriv 0).const_add (2 * w)).const_mul g)))) ?_
      ring
    refine HasDerivAt.congr_deriv ((factor_deriv k w hw.ne').fun_mul ((hA.fun_mul (low_deriv g hg.ne')).fun_add
      (hB.fun_mul (high_deriv w g hw.ne')))) ?_
    have e : (2 * w + 0) ^ 2 + (2 * g) ^ 2 = 4 * (w ^ 2 + g ^ 2) := by ring
    rw [e]
    field_simp
    ring
  · refine tendsto_of_continuous (G := fun g => k ^ 2 / w ^ 2 * (h + h * (k ^ 2 - w ^ 2 - g ^ 2) / (w ^ 2 + g ^ 2)) -
      h * (k ^ 4 / w ^ 4)) ?_ ?_ ?_
    · intro g hg
      have hp : 0 < w ^ 2 + g ^ 2 := by positivity
      rw [hreal g hg]
      have e : (2 * w + 0) ^ 2 + (2 * g) ^ 2 = 4 * (w ^ 2 + g ^ 2) := by ring
      simp only [e]
      field_simp
      ring
    · have : w ^ 2 + (0 : ℝ) ^ 2 ≠ 0 := by positivity
      fun_prop (disch := exact this)
    · field_simp
      ring
  · refine tendsto_of_continuous (G := fun g => k ^ 2 * ((- h * w * k ^ 2 / (w ^ 2 + g ^ 2) ^ 2) / w ^ 2 -
      (h + h * (k ^ 2 - w ^ 2 - g ^ 2) / (w ^ 2 + g ^ 2)) / w ^ 3) + h * (2 * k ^ 4 / w ^ 5)) ?_ ?_ ?_
    · intro g hg
      have hp : 0 < w ^ 2 + g ^ 2 := by positivity
      field_simp
      ring
    · have : w ^ 2 + (0 : ℝ) ^ 2 ≠ 0 := by positivity
      have h2 : (w ^ 2 + (0 : ℝ) ^ 2) ^ 2 ≠ 0 := by positivity
      fun_prop (disch := first | exact this | exact h2)
    · field_simp
      ring

/-- The source to first order in the difference of energies and in the width. -/
theorem source_expansion (hw : 0 < w) :
    IsExpansion (source k n n' w)
      (fun g => -(k ^ 4 * g / (2 * w ^ 5)) + k ^ 4 * g * n / w ^ 5 +
        (k ^ 2 / (2 * g) - k ^ 4 / (2 * w ^ 2 * g) - k ^ 4 * g / (2 * w ^ 4)) * n')
      (fun g => 5 * k ^ 4 * g / (4 * w ^ 6) - 5 * k ^ 4 * g * n / (2 * w ^ 6) +
        (k ^ 4 / (2 * w ^ 3 * g) + 3 * k ^ 4 * g / (2 * w ^ 5)) * n') := by
  have hreal : ∀ g, 0 < g → source k n n' w g = fun d => k ^ 2 / ((w + d) * w) *
      (n' * (2 * g * (w ^ 2 + d * w + g ^ 2 - k ^ 2) + g * d ^ 2) * (d ^ 2 + (2 * g) ^ 2)⁻¹ +
        ((2 * n - 1 + n' * d) * (4 * (2 * w + d) * g * (w * (w + d) - g ^ 2 + k ^ 2) -
            g * (2 * w + d) * ((2 * w + d) ^ 2 - 4 * g ^ 2)) -
          2 * g * n' * (((2 * w + d) ^ 2 - 4 * g ^ 2) * (w * (w + d) - g ^ 2 + k ^ 2) + 4 * (2 * w + d) ^ 2 * g ^ 2)) *
          (((2 * w + d) ^ 2 + (2 * g) ^ 2)⁻¹ * ((2 * w + d) ^ 2 + (2 * g) ^ 2)⁻¹)) := fun g hg => funext fun d =>
    source_real k n n' w g d hg (by positivity)
  refine ⟨fun g => k ^ 2 * ((n' * w / (2 * g) +
      ((n' * (8 * w * k ^ 2) + (2 * n - 1) * (4 * k ^ 2) - 2 * n' *
        (4 * w * (w ^ 2 - g ^ 2 + k ^ 2) + (4 * w ^ 2 - 4 * g ^ 2) * w + 16 * w * g ^ 2)) * g /
          (16 * (w ^ 2 + g ^ 2) ^ 2) -
        ((2 * n - 1) * (8 * w * k ^ 2) - 2 * n' * ((4 * w ^ 2 - 4 * g ^ 2) * (w ^ 2 - g ^ 2 + k ^ 2) +
          16 * w ^ 2 * g ^ 2)) * g * w / (8 * (w ^ 2 + g ^ 2) ^ 3))) / w ^ 2 -
    (n' * (w ^ 2 + g ^ 2 - k ^ 2) / (2 * g) + ((2 * n - 1) * (8 * w * k ^ 2) - 2 * n' *
        ((4 * w ^ 2 - 4 * g ^ 2) * (w ^ 2 - g ^ 2 + k ^ 2) + 16 * w ^ 2 * g ^ 2)) * g /
          (16 * (w ^ 2 + g ^ 2) ^ 2)) / w ^ 3), ?_, ?_, ?_⟩
  · intro g hg
    have hp : 0 < w ^ 2 + g ^ 2 := by positivity
    rw [hreal g hg]
    have hA : HasDerivAt (fun d : ℝ => n' * (2 * g * (w ^ 2 + d * w + g ^ 2 - k ^ 2) + g * d ^ 2))
        (n' * (2 * g * w)) 0 := by
      refine HasDerivAt.congr_deriv (HasDerivAt.const_mul n' (HasDerivAt.fun_add (HasDerivAt.const_mul (2 * g)
        (((lin_deriv (w ^ 2) w).add_const (g ^ 2)).sub_const (k ^ 2))) (((id_deriv 0).fun_pow 2).const_mul g))) ?_
      simp
    have hS : HasDerivAt (fun d : ℝ => 2 * w + d) 1 0 := (id_deriv 0).const_add (2 * w)
    have hY : HasDerivAt (fun d : ℝ => w * (w + d) - g ^ 2 + k ^ 2) w 0 := by
      simpa using ((((id_deriv 0).const_add w).const_mul w).sub_const (g ^ 2)).add_const (k ^ 2)
    have hS2 : HasDerivAt (fun d : ℝ => (2 * w + d) ^ 2) (4 * w) 0 := by
      refine HasDerivAt.congr_deriv (hS.fun_pow 2) ?_
      simp; ring
    have hQ : HasDerivAt (fun d : ℝ => 4 * (2 * w + d) * g * (w * (w + d) - g ^ 2 + k ^ 2) -
            g * (2 * w + d) * ((2 * w + d) ^ 2 - 4 * g ^ 2)) (4 * g * k ^ 2) 0 := by
      refine HasDerivAt.congr_deriv ((((hS.const_mul 4).mul_const g).fun_mul hY).fun_sub
        ((hS.const_mul g).fun_mul (hS2.sub_const (4 * g ^ 2)))) ?_
      simp; ring
    have hP : HasDerivAt (fun d : ℝ => ((2 * w + d) ^ 2 - 4 * g ^ 2) * (w * (w + d) - g ^ 2 + k ^ 2) +
        4 * (2 * w + d) ^ 2 * g ^ 2)
        (4 * w * (w ^ 2 - g ^ 2 + k ^ 2) + (4 * w ^ 2 - 4 * g ^ 2) * w + 16 * w * g ^ 2) 0 := by
      refine HasDerivAt.congr_deriv (((hS2.sub_const (4 * g ^ 2)).fun_mul hY).fun_add
        ((hS2.const_mul 4).mul_const (g ^ 2))) ?_
      simp; ring
    have hN : HasDerivAt (fun d : ℝ => 2 * n - 1 + n' * d) n' 0 := by
      simpa using ((id_deriv 0).const_mul n').const_add (2 * n - 1)
    have hH := high_deriv w g hw.ne'
    refine HasDerivAt.congr_deriv ((factor_deriv k w hw.ne').fun_mul ((hA.fun_mul (low_deriv g hg.ne')).fun_add
      (((hN.fun_mul hQ).fun_sub (hP.const_mul (2 * g * n'))).fun_mul (hH.fun_mul hH)))) ?_
    have e : (2 * w + 0) ^ 2 + (2 * g) ^ 2 = 4 * (w ^ 2 + g ^ 2) := by ring
    rw [e]
    field_simp
    ring
  · refine tendsto_of_continuous (G := fun g => k ^ 2 / w ^ 2 * (n' / 2 + ((2 * n - 1) * (8 * w * k ^ 2) - 2 * n' *
        ((4 * w ^ 2 - 4 * g ^ 2) * (w ^ 2 - g ^ 2 + k ^ 2) + 16 * w ^ 2 * g ^ 2)) /
          (16 * (w ^ 2 + g ^ 2) ^ 2)) - (-(k ^ 4 / (2 * w ^ 5)) + k ^ 4 * n / w ^ 5 - k ^ 4 / (2 * w ^ 4) * n')) ?_ ?_ ?_
    · intro g hg
      have hp : 0 < w ^ 2 + g ^ 2 := by positivity
      rw [hreal g hg]
      have e : (2 * w + 0) ^ 2 + (2 * g) ^ 2 = 4 * (w ^ 2 + g ^ 2) := by ring
      simp only [e]
      field_simp
      ring
    · have : 16 * (w ^ 2 + (0 : ℝ) ^ 2) ^ 2 ≠ 0 := by positivity
      fun_prop (disch := exact this)
    · field_simp
      ring
  · refine tendsto_of_continuous (G := fun g => k ^ 2 * ((((n' * (8 * w * k ^ 2) + (2 * n - 1) * (4 * k ^ 2) - 2 * n' *
        (4 * w * (w ^ 2 - g ^ 2 + k ^ 2) + (4 * w ^ 2 - 4 * g ^ 2) * w + 16 * w * g ^ 2)) /
          (16 * (w ^ 2 + g ^ 2) ^ 2) -
        ((2 * n - 1) * (8 * w * k ^ 2) - 2 * n' * ((4 * w ^ 2 - 4 * g ^ 2) * (w ^ 2 - g ^ 2 + k ^ 2) +
          16 * w ^ 2 * g ^ 2)) * w / (8 * (w ^ 2 + g ^ 2) ^ 3))) / w ^ 2 -
    (n' / 2 + ((2 * n - 1) * (8 * w * k ^ 2) - 2 * n' *
        ((4 * w ^ 2 - 4 * g ^ 2) * (w ^ 2 - g ^ 2 + k ^ 2) + 16 * w ^ 2 * g ^ 2)) /
          (16 * (w ^ 2 + g ^ 2) ^ 2)) / w ^ 3) - (5 * k ^ 4 / (4 * w ^ 6) - 5 * k ^ 4 * n / (2 * w ^ 6) +
        3 * k ^ 4 / (2 * w ^ 5) * n')) ?_ ?_ ?_
    · intro g hg
      have hp : 0 < w ^ 2 + g ^ 2 := by positivity
      field_simp
      ring
    · have : 16 * (w ^ 2 + (0 : ℝ) ^ 2) ^ 2 ≠ 0 := by positivity
      have h2 : 8 * (w ^ 2 + (0 : ℝ) ^ 2) ^ 3 ≠ 0 := by positivity
      fun_prop (disch := first | exact this | exact h2)
    · field_simp
      ring

/-- The coefficients of an expansion are unique. -/
theorem expansion_unique {f : ℝ → ℝ → ℝ} {a b a' b' : ℝ} {L₁ L₁' : ℝ → ℝ}
    (h1 : IsExpansion f (fun g => a / g + b * g) L₁) (h2 : IsExpansion f (fun g => a' / g + b' * g) L₁')
    (ha : a = a') : b = b' := by
  obtain ⟨_, _, h1, _⟩ := h1
  obtain ⟨_, _, h2, _⟩ := h2
  have h3 := h2.sub h1
  have h4 : Tendsto (fun g => (f g 0 - (a' / g + b' * g)) / g - (f g 0 - (a / g + b * g)) / g)
      (nhdsWithin 0 (Set.Ioi 0)) (nhds (b - b')) := by
    refine tendsto_const_nhds.congr' ?_
    filter_upwards [self_mem_nhdsWithin] with g hg
    have : g ≠ 0 := ne_of_gt hg
    rw [ha]
    field_simp
    ring
  have := tendsto_nhds_unique h4 h3
  linarith

end Verif.Via
