import Mathlib.Analysis.Calculus.Taylor
import Mathlib.Analysis.SpecialFunctions.ExpDeriv
import Mathlib.Analysis.Calculus.Deriv.Polynomial
import Mathlib.Analysis.Calculus.Deriv.Pow
import Mathlib.Algebra.Polynomial.Eval.Degree
import Mathlib.Tactic.Ring
import Mathlib.Tactic.FieldSimp
import Mathlib.Tactic.LinearCombination
import Mathlib.Tactic.IntervalCases
import Verif.Utility.NumDeriv

/-!
# Numerical derivatives (C41)
-/

set_option linter.unusedSectionVars false

namespace Verif.Utility

open Polynomial

section
variable {K : Type} [Field K] [CharZero K]

theorem bump_zero (phi : List K) (i : Nat) : bump phi i 0 = phi := by
  simp only [bump, add_zero]
  exact List.modify_id _ _

theorem bump_comm (phi : List K) (i j : Nat) (s t : K) :
    bump (bump phi i s) j t = bump (bump phi j t) i s := by
  apply List.ext_getElem
  · simp [bump]
  · intro k h1 h2
    simp only [bump, List.getElem_modify]
    by_cases hi : i = k <;> by_cases hj : j = k <;> simp [hi, hj, add_right_comm]

/-- The gradient has as many components as the point. -/
theorem C41_nabla_length (phi : List K) (f : List K → K) (eps : K) :
    (nablaNumerical phi f eps).length = phi.length := by simp [nablaNumerical]

/-- For every function that is a polynomial of degree at most four in component `i`, and every step,
component `i` of the numerical gradient is the exact partial derivative. -/
theorem C41_nabla_exact (phi : List K) (f : List K → K) (eps : K) (heps : eps ≠ 0) (i : Nat)
    (hi : i < phi.length) (p : K[X]) (hp : p.natDegree ≤ 4)
    (hf : ∀ t, f (bump phi i t) = p.eval t) :
    (nablaNumerical phi f eps)[i]'(by simpa [nablaNumerical] using hi) = p.derivative.eval 0 := by
  have h := Polynomial.eval_eq_sum_range' (n := 5) (show p.natDegree < 5 by omega)
  have hd : p.derivative.eval 0 = p.coeff 1 := by
    rw [← Polynomial.coeff_zero_eq_eval_zero, Polynomial.coeff_derivative]
    simp
  rw [hd]
  simp only [nablaNumerical, List.getElem_map, List.getElem_range, hf, h, Finset.sum_range_succ,
    Finset.sum_range_zero]
  have h12 : (12 : K) ≠ 0 := by norm_num
  field_simp
  ring

/-- The degree cannot be raised: for a fifth power the derivative is off by `-4 eps ^ 4`. -/
theorem C41_nabla_fifth (phi : List K) (f : List K → K) (eps : K) (heps : eps ≠ 0) (i : Nat)
    (hi : i < phi.length) (hf : ∀ t, f (bump phi i t) = t ^ 5) :
    (nablaNumerical phi f eps)[i]'(by simpa [nablaNumerical] using hi) = -4 * eps ^ 4 := by
  simp only [nablaNumerical, List.getElem_map, List.getElem_range, hf]
  have h12 : (12 : K) ≠ 0 := by norm_num
  field_simp
  ring

/-- The matrix is square of the size of the point, … -/
theorem C41_hessian_shape (phi : List K) (V : List K → K) (eps : K) :
    (hessianNumerical phi V eps).length = phi.length ∧
      ∀ r ∈ hessianNumerical phi V eps, r.length = phi.length := by
  refine ⟨by simp [hessianNumerical], ?_⟩
  intro r hr
  simp only [hessianNumerical, List.mem_map] at hr
  obtain ⟨i, -, rfl⟩ := hr
  simp

/-- … and symmetric for every function, smooth or not. -/
theorem C41_hessian_symmetric (phi : List K) (V : List K → K) (eps : K) (i j : Nat)
    (hi : i < phi.length) (hj : j < phi.length) :
    ((hessianNumerical phi V eps)[i]'(by simpa [hessianNumerical] using hi))[j]'(by
        simpa [hessianNumerical] using hj) =
      ((hessianNumerical phi V eps)[j]'(by simpa [hessianNumerical] using hj))[i]'(by
        simpa [hessianNumerical] using hi) := by
  simp only [hessianNumerical, List.getElem_map, List.getElem_range]
  rcases lt_trichotomy i j with h | rfl | h
  · simp [h.ne, h.ne', h, h.le]
  · rfl
  · simp [h.ne, h.ne', h, h.le]

/-- Diagonal elements are exact for functions that are polynomials of degree at most three in that
component. -/
theorem C41_hessian_diagonal (phi : List K) (V : List K → K) (eps : K) (heps : eps ≠ 0) (i : Nat)
    (hi : i < phi.length) (p : K[X]) (hp : p.natDegree ≤ 3)
    (hV : ∀ t, V (bump phi i t) = p.eval t) :
    ((hessianNumerical phi V eps)[i]'(by simpa [hessianNumerical] using hi))[i]'(by
        simpa [hessianNumerical] using hi) = p.derivative.derivative.eval 0 := by
  have h := Polynomial.eval_eq_sum_range' (n := 4) (show p.natDegree < 4 by omega)
  have hd : p.derivative.derivative.eval 0 = 2 * p.coeff 2 := by
    rw [← Polynomial.coeff_zero_eq_eval_zero, Polynomial.coeff_derivative,
      Polynomial.coeff_derivative]
    push_cast
    ring
  have h0 : V phi = p.eval 0 := by rw [← hV, bump_zero]
  rw [hd]
  simp only [hessianNumerical, List.getElem_map, List.getElem_range, if_true, hessianDiag, h0, hV, h,
    Finset.sum_range_succ, Finset.sum_range_zero]
  have h4 : (4 : K) ≠ 0 := by norm_num
  field_simp
  ring

/-- Elements off the diagonal are exact for functions that are polynomials of total degree at most
three in the two components (`c a b` is the coefficient of `s ^ a * t ^ b`). -/
theorem C41_hessian_offdiagonal (phi : List K) (V : List K → K) (eps : K) (heps : eps ≠ 0)
    (i j : Nat) (hi : i < phi.length) (hj : j < phi.length) (hij : i ≠ j) (c : Nat → Nat → K)
    (hV : ∀ s t, V (bump (bump phi i s) j t) =
      ∑ a ∈ Finset.range 4, ∑ b ∈ Finset.range (4 - a), c a b * s ^ a * t ^ b) :
    ((hessianNumerical phi V eps)[i]'(by simpa [hessianNumerical] using hi))[j]'(by
        simpa [hessianNumerical] using hj) = c 1 1 := by
  have h4 : (4 : K) ≠ 0 := by norm_num
  have hV' : ∀ s t, V (bump (bump phi j t) i s) =
      ∑ a ∈ Finset.range 4, ∑ b ∈ Finset.range (4 - a), c a b * s ^ a * t ^ b := by
    intro s t
    rw [← bump_comm, hV]
  simp only [hessianNumerical, List.getElem_map, List.getElem_range, if_neg hij]
  split
  · simp only [hessianOff, hV, Finset.sum_range_succ, Finset.sum_range_zero]
    field_simp
    ring
  · simp only [hessianOff, hV', Finset.sum_range_succ, Finset.sum_range_zero]
    field_simp
    ring

end

section
/-! ### Real functions -/

/-- On the reals: the derivative itself. -/
theorem C41_nabla_deriv (phi : List ℝ) (f : List ℝ → ℝ) (eps : ℝ) (heps : eps ≠ 0) (i : Nat)
    (hi : i < phi.length) (p : ℝ[X]) (hp : p.natDegree ≤ 4)
    (hf : ∀ t, f (bump phi i t) = p.eval t) :
    (nablaNumerical phi f eps)[i]'(by simpa [nablaNumerical] using hi) =
      deriv (fun t => f (bump phi i t)) 0 := by
  rw [C41_nabla_exact phi f eps heps i hi p hp hf]
  have : (fun t => f (bump phi i t)) = fun t => p.eval t := funext hf
  rw [this, Polynomial.deriv]

theorem taylor_zero {g : ℝ → ℝ} {n : ℕ} (hg : ContDiff ℝ (n + 1 : ℕ) g) {x : ℝ} (hx : x ≠ 0) :
    ∃ y, |y| ≤ |x| ∧ g x = (∑ k ∈ Finset.range (n + 1),
      iteratedDeriv k g 0 * x ^ k / (k.factorial : ℝ)) +
      iteratedDeriv (n + 1) g y * x ^ (n + 1) / ((n + 1).factorial : ℝ) := by
  obtain ⟨y, hy, h⟩ := taylor_mean_remainder_lagrange_iteratedDeriv (f := g) (x := x) (x₀ := 0)
    (n := n) hx.symm (by exact_mod_cast hg.contDiffOn)
  refine ⟨y, ?_, ?_⟩
  · rcases lt_or_gt_of_ne hx with h0 | h0
    · rw [Set.uIoo_of_gt h0] at hy
      rw [abs_of_neg hy.2, abs_of_neg h0]
      linarith [hy.1]
    · rw [Set.uIoo_of_lt h0] at hy
      rw [abs_of_pos hy.1, abs_of_pos h0]
      exact hy.2.le
  · rw [taylor_within_apply] at h
    have hk : ∀ k ∈ Finset.range (n + 1),
        (((k.factorial : ℝ))⁻¹ * (x - 0) ^ k) • iteratedDerivWithin k g (Set.uIcc 0 x) 0 =
          iteratedDeriv k g 0 * x ^ k / (k.factorial : ℝ) := by
      intro k hk
      rw [iteratedDerivWithin_eq_iteratedDeriv (uniqueDiffOn_uIcc hx.symm) _ Set.left_mem_uIcc]
      · rw [sub_zero, smul_eq_mul]
        ring
      · exact (hg.of_le (by exact_mod_cast (Finset.mem_range.mp hk).le)).contDiffAt
    rw [Finset.sum_congr rfl hk] at h
    rw [sub_zero] at h
    linarith

/-- For every five times continuously differentiable function the error of the numerical gradient is
at most `M / 18 * eps ^ 4`, `M` bounding the fifth derivative on the stretch that is sampled. -/
theorem C41_nabla_error (phi : List ℝ) (f : List ℝ → ℝ) (eps : ℝ) (heps : eps ≠ 0) (i : Nat)
    (hi : i < phi.length) (hg : ContDiff ℝ 5 fun t => f (bump phi i t)) (M : ℝ)
    (hM : ∀ t, |t| ≤ 2 * |eps| → |iteratedDeriv 5 (fun t => f (bump phi i t)) t| ≤ M) :
    |(nablaNumerical phi f eps)[i]'(by simpa [nablaNumerical] using hi) -
      deriv (fun t => f (bump phi i t)) 0| ≤ M / 18 * eps ^ 4 := by
  set g := fun t => f (bump phi i t) with hgdef
  have hgv : ∀ t, f (bump phi i t) = g t := fun t => rfl
  have h2 : (2 * eps) ≠ 0 := by simpa using heps
  have hab : |2 * eps| = 2 * |eps| := by rw [abs_mul]; norm_num
  obtain ⟨y1, b1, e1⟩ := taylor_zero (n := 4) (g := g) (by exact_mod_cast hg) h2
  obtain ⟨y2, b2, e2⟩ := taylor_zero (n := 4) (g := g) (by exact_mod_cast hg) heps
  obtain ⟨y3, b3, e3⟩ := taylor_zero (n := 4) (g := g) (by exact_mod_cast hg) (neg_ne_zero.mpr heps)
  obtain ⟨y4, b4, e4⟩ := taylor_zero (n := 4) (g := g) (by exact_mod_cast hg) (neg_ne_zero.mpr h2)
  have ha := abs_nonneg eps
  rw [abs_neg] at b3 b4
  rw [hab] at b1 b4
  have m1 := hM y1 b1
  have m2 := hM y2 (by linarith)
  have m3 := hM y3 (by linarith)
  have m4 := hM y4 b4
  simp only [nablaNumerical, List.getElem_map, List.getElem_range, hgv, e1, e2, e3, e4,
    Finset.sum_range_succ, Finset.sum_range_zero, Nat.factorial]
  norm_num only [iteratedDeriv_one]
  set d0 := iteratedDeriv 0 g 0
  set d2 := iteratedDeriv 2 g 0
  set d3 := iteratedDeriv 3 g 0
  set d4 := iteratedDeriv 4 g 0
  set q1 := iteratedDeriv 5 g y1
  set q2 := iteratedDeriv 5 g y2
  set q3 := iteratedDeriv 5 g y3
  set q4 := iteratedDeriv 5 g y4
  have key : ∀ D : ℝ, D = eps ^ 4 / 1440 * (-32 * q1 + 8 * q2 + 8 * q3 - 32 * q4) →
      |D| ≤ M / 18 * eps ^ 4 := by
    intro D hD
    have he : 0 ≤ eps ^ 4 := by positivity
    rw [hD, abs_mul, abs_of_nonneg (by positivity)]
    have : |-32 * q1 + 8 * q2 + 8 * q3 - 32 * q4| ≤ 80 * M := by
      rw [abs_le] at m1 m2 m3 m4 ⊢
      constructor <;> linarith
    calc eps ^ 4 / 1440 * |-32 * q1 + 8 * q2 + 8 * q3 - 32 * q4|
        ≤ eps ^ 4 / 1440 * (80 * M) := by gcongr
      _ = M / 18 * eps ^ 4 := by ring
  apply key
  field_simp
  ring

/-- The hypotheses are met by the exponential function. -/
example : ContDiff ℝ 5 (fun t => Real.exp ((bump [0] 0 t).headD 0)) ∧
    ∀ t, |t| ≤ 2 * |(1 : ℝ)| →
      |iteratedDeriv 5 (fun t => Real.exp ((bump [0] 0 t).headD 0)) t| ≤ Real.exp 2 := by
  have h : (fun t : ℝ => Real.exp ((bump [0] 0 t).headD 0)) = Real.exp := by
    funext t; simp [bump]
  rw [h]
  refine ⟨Real.contDiff_exp, fun t ht => ?_⟩
  rw [iteratedDeriv_eq_iterate, Real.iter_deriv_exp, abs_of_pos (Real.exp_pos t)]
  have := (abs_le.mp ht).2
  exact Real.exp_le_exp.mpr (by simpa using this)

end

end Verif.Utility
