import Verif.Debye.Model
import Verif.Lagrangian.Derivatives
import Mathlib.Analysis.Calculus.MeanValue
import Mathlib.Analysis.Calculus.Deriv.Pow

/-!
# Lemmas on thermal masses
-/

namespace Verif.Debye

open Verif.Potential Verif.Potential.Spec Verif.Lagrangian
open scoped BigOperators ComplexConjugate

variable {n : Nat}

/-! ### The trace of the mass matrix as a Laplacian -/

theorem const_of_deriv_zero (f : ℝ → ℝ) (h : ∀ t, HasDerivAt f 0 t) (t : ℝ) : f t = f 0 :=
  is_const_of_deriv_eq_zero (fun s => (h s).differentiableAt) (fun s => (h s).deriv) t 0

/-- The polynomial on a line. -/
theorem polynomial_line (c : Curv n ℝ) (hc : Symmetric c) (v w : Fin n → ℝ) :
    ∃ a C D : ℝ, ∀ t : ℝ, polynomial c (fun i => v i + t * w i) =
      polynomial c v + t * a + t ^ 2 / 2 * (∑ i, ∑ j, hessianCT c v i j * w j * w i) +
        t ^ 3 * C + t ^ 4 * D := by
  have hl : ∀ (t : ℝ) (i : Fin n), HasDerivAt (fun s : ℝ => v i + s * w i) (w i) t := by
    intro t i
    simpa using ((hasDerivAt_id t).mul_const (w i)).const_add (v i)
  set f : ℝ → ℝ := fun t => polynomial c (fun i => v i + t * w i) with hf
  set g : ℝ → ℝ := fun t => ∑ i, grad c (fun i => v i + t * w i) i * w i with hg
  have hfg : ∀ t, HasDerivAt f (g t) t := fun t =>
    hasDerivAt_polynomial c hc (fun s i => v i + s * w i) w t (hl t)
  have hgh : ∀ t, HasDerivAt g (∑ i, (∑ j, hessianCT c (fun i => v i + t * w i) i j * w j) * w i)
      t := fun t => HasDerivAt.fun_sum fun i _ =>
    (hasDerivAt_grad c hc (fun s i => v i + s * w i) w t (hl t) i).mul_const (w i)
  set h1 : ℝ := ∑ i, ∑ j, (∑ k, (c.L3 i j k * w k + ∑ l, 1 / 2 * c.L4 i j k l *
    (v k * w l + w k * v l))) * w j * w i with hh1
  set h2 : ℝ := ∑ i, ∑ j, (∑ k, ∑ l, 1 / 2 * c.L4 i j k l * (w k * w l)) * w j * w i with hh2
  have he : ∀ t : ℝ, (∑ i, (∑ j, hessianCT c (fun i => v i + t * w i) i j * w j) * w i) =
      (∑ i, ∑ j, hessianCT c v i j * w j * w i) + t * h1 + t ^ 2 * h2 := by
    intro t
    have e : ∀ i j, hessianCT c (fun i => v i + t * w i) i j = hessianCT c v i j +
        t * (∑ k, (c.L3 i j k * w k + ∑ l, 1 / 2 * c.L4 i j k l * (v k * w l + w k * v l))) +
        t ^ 2 * ∑ k, ∑ l, 1 / 2 * c.L4 i j k l * (w k * w l) := by
      intro i j
      unfold hessianCT
      simp only [Finset.mul_sum, mul_add]
      rw [add_assoc, add_assoc, ← Finset.sum_add_distrib, ← Finset.sum_add_distrib]
      congr 1
      refine Finset.sum_congr rfl fun k _ => ?_
      rw [show ∀ a b c d e f : ℝ, a + b + (c + d + f) = (a + c) + (b + (d + f)) from
        fun _ _ _ _ _ _ => by ring, ← Finset.sum_add_distrib, ← Finset.sum_add_distrib]
      · congr 1
        · ring
        · exact Finset.sum_congr rfl fun l _ => by ring
      · exact 0
    simp only [hh1, hh2, e]
    rw [Finset.mul_sum, Finset.mul_sum, ← Finset.sum_add_distrib, ← Finset.sum_add_distrib]
    refine Finset.sum_congr rfl fun i _ => ?_
    rw [Finset.sum_mul, Finset.mul_sum, Finset.mul_sum, ← Finset.sum_add_distrib,
      ← Finset.sum_add_distrib]
    exact Finset.sum_congr rfl fun j _ => by ring
  set h0 : ℝ := ∑ i, ∑ j, hessianCT c v i j * w j * w i with hh0
  refine ⟨g 0, h1 / 6, h2 / 12, fun t => ?_⟩
  have hg' : ∀ t, g t = g 0 + t * h0 + t ^ 2 / 2 * h1 + t ^ 3 / 3 * h2 := by
    intro t
    have := const_of_deriv_zero (fun t => g t - (t * h0 + t ^ 2 / 2 * h1 + t ^ 3 / 3 * h2))
      (fun t => by
        have hq : HasDerivAt (fun t : ℝ => t * h0 + t ^ 2 / 2 * h1 + t ^ 3 / 3 * h2)
            (h0 + t * h1 + t ^ 2 * h2) t := by
          have := (((hasDerivAt_id t).mul_const h0).fun_add
            (((hasDerivAt_pow 2 t).div_const 2).mul_const h1)).fun_add
            (((hasDerivAt_pow 3 t).div_const 3).mul_const h2)
          refine this.congr_deriv ?_
          norm_num
          try ring
        have h := (hgh t).fun_sub hq
        rw [he t, sub_self] at h
        exact h) t
    simp only [zero_mul] at this
    norm_num at this
    linarith
  have hf' := const_of_deriv_zero
    (fun t => f t - (t * g 0 + t ^ 2 / 2 * h0 + t ^ 3 / 6 * h1 + t ^ 4 / 12 * h2))
    (fun t => by
      have hq : HasDerivAt
          (fun t : ℝ => t * g 0 + t ^ 2 / 2 * h0 + t ^ 3 / 6 * h1 + t ^ 4 / 12 * h2)
          (g 0 + t * h0 + t ^ 2 / 2 * h1 + t ^ 3 / 3 * h2) t := by
        have := ((((hasDerivAt_id t).mul_const (g 0)).fun_add
          (((hasDerivAt_pow 2 t).div_const 2).mul_const h0)).fun_add
          (((hasDerivAt_pow 3 t).div_const 6).mul_const h1)).fun_add
          (((hasDerivAt_pow 4 t).div_const 12).mul_const h2)
        refine this.congr_deriv ?_
        norm_num
        try ring
      have h := (hfg t).fun_sub hq
      rw [hg' t, sub_self] at h
      exact h) t
  norm_num at hf'
  have e0 : f 0 = polynomial c v := by simp [hf]
  rw [e0] at hf'
  change f t = _
  linear_combination hf'

/-- The second difference with the exact weights for polynomials of degree four. -/
noncomputable def secondDifference (W : (Fin n → ℝ) → ℝ) (v : Fin n → ℝ) (k : Fin n) : ℝ :=
  (16 * (W (fun i => v i + 1 * if i = k then 1 else 0) + W (fun i => v i + -1 * if i = k then 1 else 0)
      - 2 * W v) -
    (W (fun i => v i + 2 * if i = k then 1 else 0) + W (fun i => v i + -2 * if i = k then 1 else 0)
      - 2 * W v)) / 12

theorem hessian_secondDifference (c : Curv n ℝ) (hc : Symmetric c) (v : Fin n → ℝ) (k : Fin n) :
    hessianCT c v k k = secondDifference (polynomial c) v k := by
  obtain ⟨a, C, D, h⟩ := polynomial_line c hc v (fun i => if i = k then 1 else 0)
  have e : (∑ i, ∑ j, hessianCT c v i j * (if j = k then (1 : ℝ) else 0) *
      (if i = k then (1 : ℝ) else 0)) = hessianCT c v k k := by simp
  rw [e] at h
  unfold secondDifference
  rw [h 1, h (-1), h 2, h (-2)]
  ring

/-- The part of the trace of the mass matrix that is quadratic in the fields. -/
theorem quartic_trace (c : Curv n ℝ) (hc : Symmetric c) (W : (Fin n → ℝ) → ℝ)
    (hW : ∀ φ, polynomial c φ = W φ) (v : Fin n → ℝ) :
    ∑ i, ∑ j, (∑ k, c.L4 i j k k) * (v i * v j) =
      (∑ k, secondDifference W v k) + (∑ k, secondDifference W (fun i => - v i) k) -
        2 * ∑ k, secondDifference W (fun _ => 0) k := by
  have e : W = polynomial c := funext fun φ => (hW φ).symm
  rw [e]
  simp only [← hessian_secondDifference c hc]
  rw [← Finset.sum_add_distrib, Finset.mul_sum, ← Finset.sum_sub_distrib]
  have s : ∀ i j k, c.L4 i j k k = c.L4 k k i j := by
    intro i j k
    rw [hc.s4b i j k k, hc.s4a i k j k, hc.s4c k i j k, hc.s4b k i k j]
  simp only [Finset.sum_mul]
  rw [Finset.sum_congr rfl fun i _ => Finset.sum_comm, Finset.sum_comm]
  refine Finset.sum_congr rfl fun k _ => ?_
  rw [Finset.sum_congr rfl fun i _ => Finset.sum_congr rfl fun j _ => by rw [s i j k]]
  unfold hessianCT
  rw [show (2 : ℝ) * (c.L2 k k + ∑ x, (c.L3 k k x * 0 + ∑ l, 1 / 2 * c.L4 k k x l * 0 * 0)) =
    2 * c.L2 k k from by simp]
  rw [show ∀ a b d : ℝ, a + b + (a + d) - 2 * a = b + d from fun _ _ _ => by ring,
    ← Finset.sum_add_distrib]
  refine Finset.sum_congr rfl fun i _ => ?_
  rw [show ∀ a b d e f : ℝ, a * b + d + (a * -b + e) = d + e from fun _ _ _ _ _ => by ring,
    ← Finset.sum_add_distrib]
  · exact Finset.sum_congr rfl fun j _ => by ring
  · exact 0

end Verif.Debye
