import Mathlib.LinearAlgebra.Matrix.Trace
import Mathlib.LinearAlgebra.Matrix.Hermitian
import Mathlib.Analysis.RCLike.Basic
import Mathlib.Algebra.BigOperators.Field
import Mathlib.Algebra.Order.BigOperators.Ring.Finset
import Mathlib.Tactic.LinearCombination

/-!
# Functions of two Hermitian matrices

The identities between the eigenvalues and eigenvectors of two Hermitian matrices that give the
derivatives of spectral functions.
-/

namespace Verif.Weinberg

open Matrix
open scoped BigOperators

variable {𝕜 : Type} [RCLike 𝕜] {m : Nat}

/-- The columns of `U` are eigenvectors of `A` with the eigenvalues `a`. -/
structure Diag (A U : Matrix (Fin m) (Fin m) 𝕜) (a : Fin m → ℝ) : Prop where
  left : star U * U = 1
  right : U * star U = 1
  eq : A = U * diagonal (fun i => (a i : 𝕜)) * star U

/-- The function `f` of the matrix with eigenvectors `U` and eigenvalues `a`. -/
noncomputable def fn (f : ℝ → ℝ) (U : Matrix (Fin m) (Fin m) 𝕜) (a : Fin m → ℝ) :
    Matrix (Fin m) (Fin m) 𝕜 :=
  U * diagonal (fun i => (f (a i) : 𝕜)) * star U

/-- The sum of the squares of the entries. -/
noncomputable def frob (X : Matrix (Fin m) (Fin m) 𝕜) : ℝ := ∑ i, ∑ j, ‖X i j‖ ^ 2

theorem frob_nonneg (X : Matrix (Fin m) (Fin m) 𝕜) : 0 ≤ frob X :=
  Finset.sum_nonneg fun _ _ => Finset.sum_nonneg fun _ _ => sq_nonneg _

theorem mul_conj_norm (z : 𝕜) : z * star z = ((‖z‖ ^ 2 : ℝ) : 𝕜) := by
  rw [RCLike.star_def, RCLike.mul_conj]; norm_cast

theorem conj_mul_norm (z : 𝕜) : star z * z = ((‖z‖ ^ 2 : ℝ) : 𝕜) := by
  rw [mul_comm, mul_conj_norm]

theorem frob_trace (X : Matrix (Fin m) (Fin m) 𝕜) : trace (X * star X) = ((frob X : ℝ) : 𝕜) := by
  simp only [trace, diag_apply, mul_apply, frob, RCLike.ofReal_sum, star_apply, mul_conj_norm]

/-- The sum of squares does not change under unitary transformations. -/
theorem frob_unitary (X U V : Matrix (Fin m) (Fin m) 𝕜) (hU : U * star U = 1) (hV : V * star V = 1) :
    frob (star U * X * V) = frob X := by
  have h : trace (star U * X * V * star (star U * X * V)) = trace (X * star X) := by
    have e : star U * X * V * star (star U * X * V) = star U * (X * (V * star V) * star X * U) := by
      simp only [star_mul, star_star, mul_assoc]
    rw [e, trace_mul_comm, hV, mul_one, mul_assoc, hU, mul_one]
  rw [frob_trace, frob_trace] at h
  exact_mod_cast h

section

variable {A B U V : Matrix (Fin m) (Fin m) 𝕜} {a b : Fin m → ℝ}

theorem Diag.left_mul (h : Diag A U a) : star U * A = diagonal (fun i => (a i : 𝕜)) * star U := by
  conv_lhs => rw [h.eq]
  rw [← mul_assoc, ← mul_assoc, h.left, one_mul]

theorem Diag.mul_right (h : Diag A U a) : A * U = U * diagonal (fun i => (a i : 𝕜)) := by
  conv_lhs => rw [h.eq]
  rw [mul_assoc, h.left, mul_one]

/-- The entries of the difference of two matrices between their eigenvectors. -/
theorem Diag.entry (hA : Diag A U a) (hB : Diag B V b) (i j : Fin m) :
    (star U * (A - B) * V) i j = ((a i - b j : ℝ) : 𝕜) * (star U * V) i j := by
  rw [mul_sub, sub_mul, hA.left_mul, mul_assoc (star U) B, hB.mul_right, mul_assoc, ← mul_assoc (star U),
    Matrix.sub_apply, diagonal_mul, mul_diagonal]
  push_cast
  ring

/-- The weights add up to one. -/
theorem weight_left (hU : star U * U = 1) (hV : V * star V = 1) (i : Fin m) :
    ∑ j, ‖(star U * V) i j‖ ^ 2 = 1 := by
  have h : (star U * V * star (star U * V)) i i = 1 := by
    have e : star U * V * star (star U * V) = 1 := by
      rw [star_mul, star_star, ← mul_assoc, mul_assoc (star U), hV, mul_one, hU]
    rw [e, one_apply_eq]
  rw [mul_apply] at h
  simp only [star_apply (star U * V), mul_conj_norm] at h
  exact_mod_cast h

theorem weight_right (hU : U * star U = 1) (hV : star V * V = 1) (j : Fin m) :
    ∑ i, ‖(star U * V) i j‖ ^ 2 = 1 := by
  have h : (star (star U * V) * (star U * V)) j j = 1 := by
    have e : star (star U * V) * (star U * V) = 1 := by
      rw [star_mul, star_star, ← mul_assoc, mul_assoc (star V), hU, mul_one, hV]
    rw [e, one_apply_eq]
  rw [mul_apply] at h
  simp only [star_apply (star U * V), conj_mul_norm] at h
  exact_mod_cast h

theorem Diag.distance (hA : Diag A U a) (hB : Diag B V b) :
    ∑ i, ∑ j, ‖(star U * V) i j‖ ^ 2 * (a i - b j) ^ 2 = frob (A - B) := by
  rw [← frob_unitary (A - B) U V hA.right hB.right, frob]
  refine Finset.sum_congr rfl fun i _ => Finset.sum_congr rfl fun j _ => ?_
  rw [hA.entry hB, norm_mul, mul_pow, RCLike.norm_ofReal, sq_abs, mul_comm]

/-- Every eigenvalue is close to an eigenvalue of the other matrix. -/
theorem Diag.near (hA : Diag A U a) (hB : Diag B V b) (i : Fin m) :
    ∃ j, (a i - b j) ^ 2 ≤ frob (A - B) := by
  by_contra hne
  push Not at hne
  have h1 : ∑ j, ‖(star U * V) i j‖ ^ 2 * (a i - b j) ^ 2 ≤ frob (A - B) := by
    rw [← hA.distance hB]
    exact Finset.single_le_sum (f := fun i => ∑ j, ‖(star U * V) i j‖ ^ 2 * (a i - b j) ^ 2)
      (fun _ _ => Finset.sum_nonneg fun _ _ => by positivity) (Finset.mem_univ i)
  have hw := weight_left hA.left hB.right i
  have hpos : ∃ j ∈ Finset.univ, ‖(star U * V) i j‖ ^ 2 ≠ 0 := by
    by_contra h0
    push Not at h0
    rw [Finset.sum_eq_zero h0] at hw
    exact zero_ne_one hw
  obtain ⟨j, -, hj⟩ := hpos
  have h2 : frob (A - B) < ∑ j, ‖(star U * V) i j‖ ^ 2 * (a i - b j) ^ 2 := by
    calc frob (A - B) = ∑ j, ‖(star U * V) i j‖ ^ 2 * frob (A - B) := by
          rw [← Finset.sum_mul, hw, one_mul]
      _ < _ := by
          refine Finset.sum_lt_sum (fun k _ => mul_le_mul_of_nonneg_left (hne k).le (sq_nonneg _))
            ⟨j, Finset.mem_univ j, mul_lt_mul_of_pos_left (hne j) ?_⟩
          exact lt_of_le_of_ne (sq_nonneg _) (Ne.symm hj)
  exact absurd h1 (not_le.2 h2)

/-- The entries of the difference between the eigenvectors of the second matrix. -/
theorem Diag.entry_right (hA : Diag A U a) (hB : Diag B V b) (k j : Fin m) :
    (star V * (A - B) * V) k j =
      ∑ i, ((a i - b j : ℝ) : 𝕜) * (star ((star U * V) i k) * (star U * V) i j) := by
  have e : star V * (A - B) * V = star (star U * V) * (star U * (A - B) * V) := by
    rw [star_mul, star_star, mul_assoc (star V) U, ← mul_assoc U, ← mul_assoc U, hA.right, one_mul,
      mul_assoc]
  rw [e, mul_apply]
  refine Finset.sum_congr rfl fun i _ => ?_
  rw [hA.entry hB, star_apply]
  ring

/-- The remainder of the first-order expansion of the trace of a function of a matrix. -/
theorem Diag.trace_remainder (hA : Diag A U a) (hB : Diag B V b) (F f : ℝ → ℝ) :
    ∑ i, F (a i) - ∑ j, F (b j) - RCLike.re (trace ((A - B) * fn f V b)) =
      ∑ i, ∑ j, ‖(star U * V) i j‖ ^ 2 * (F (a i) - F (b j) - (a i - b j) * f (b j)) := by
  have h1 : ∑ i, F (a i) = ∑ i, ∑ j, ‖(star U * V) i j‖ ^ 2 * F (a i) := by
    refine Finset.sum_congr rfl fun i _ => ?_
    rw [← Finset.sum_mul, weight_left hA.left hB.right, one_mul]
  have h2 : ∑ j, F (b j) = ∑ i, ∑ j, ‖(star U * V) i j‖ ^ 2 * F (b j) := by
    rw [Finset.sum_comm]
    refine Finset.sum_congr rfl fun j _ => ?_
    rw [← Finset.sum_mul, weight_right hA.right hB.left, one_mul]
  have h3 : RCLike.re (trace ((A - B) * fn f V b)) =
      ∑ i, ∑ j, ‖(star U * V) i j‖ ^ 2 * ((a i - b j) * f (b j)) := by
    have e : trace ((A - B) * fn f V b) =
        trace (star V * (A - B) * V * diagonal (fun i => (f (b i) : 𝕜))) := by
      rw [fn, ← mul_assoc, ← mul_assoc, trace_mul_comm, ← mul_assoc, ← mul_assoc]
    rw [e, trace, map_sum, Finset.sum_comm]
    refine Finset.sum_congr rfl fun j _ => ?_
    rw [diag_apply, mul_diagonal, hA.entry_right hB, Finset.sum_mul, map_sum]
    refine Finset.sum_congr rfl fun i _ => ?_
    rw [conj_mul_norm, ← RCLike.ofReal_mul, ← RCLike.ofReal_mul, RCLike.ofReal_re]
    ring
  rw [h1, h2, h3, ← Finset.sum_sub_distrib, ← Finset.sum_sub_distrib]
  refine Finset.sum_congr rfl fun i _ => ?_
  rw [← Finset.sum_sub_distrib, ← Finset.sum_sub_distrib]
  exact Finset.sum_congr rfl fun j _ => by ring

/-- The eigenvectors of the second matrix are orthonormal in the basis of the first. -/
theorem overlap (hU : U * star U = 1) (hV : star V * V = 1) (k j : Fin m) :
    ∑ i, star ((star U * V) i k) * (star U * V) i j = if k = j then 1 else 0 := by
  have e : star (star U * V) * (star U * V) = 1 := by
    rw [star_mul, star_star, ← mul_assoc, mul_assoc (star V), hU, mul_one, hV]
  have := congrFun (congrFun e k) j
  rw [mul_apply, one_apply] at this
  rw [← this]
  rfl

/-- The function of the first matrix between eigenvectors of the second. -/
theorem fn_entry (f : ℝ → ℝ) (k j : Fin m) :
    (star V * fn f U a * V) k j =
      ∑ i, (f (a i) : 𝕜) * (star ((star U * V) i k) * (star U * V) i j) := by
  have e : star V * fn f U a * V = star (star U * V) * (diagonal (fun i => (f (a i) : 𝕜)) * (star U * V)) := by
    rw [fn, star_mul, star_star]
    simp only [mul_assoc]
  rw [e, mul_apply]
  refine Finset.sum_congr rfl fun i _ => ?_
  rw [diagonal_mul, star_apply]
  ring

theorem fn_self (hV : star V * V = 1) (f : ℝ → ℝ) :
    star V * fn f V b * V = diagonal (fun i => (f (b i) : 𝕜)) := by
  rw [fn, ← mul_assoc, ← mul_assoc, hV, one_mul, mul_assoc, hV, mul_one]

/-- The remainder of the first-order expansion of a function of a matrix. -/
theorem Diag.fn_remainder (hA : Diag A U a) (hB : Diag B V b) (f : ℝ → ℝ) (g : ℝ) (k j : Fin m) :
    (star V * (fn f U a - fn f V b) * V) k j - (g : 𝕜) * (star V * (A - B) * V) k j =
      ∑ i, ((f (a i) - f (b j) - g * (a i - b j) : ℝ) : 𝕜) *
        (star ((star U * V) i k) * (star U * V) i j) := by
  have h2 : (star V * fn f V b * V) k j =
      ∑ i, (f (b j) : 𝕜) * (star ((star U * V) i k) * (star U * V) i j) := by
    rw [fn_self hB.left, ← Finset.mul_sum, overlap hA.right hB.left, diagonal_apply]
    split_ifs with h
    · rw [h, mul_one]
    · rw [mul_zero]
  rw [mul_sub, sub_mul, Matrix.sub_apply, fn_entry, h2, hA.entry_right hB, Finset.mul_sum,
    ← Finset.sum_sub_distrib, ← Finset.sum_sub_distrib]
  refine Finset.sum_congr rfl fun i _ => ?_
  push_cast
  ring

/-- One column of the distance. -/
theorem Diag.column (hA : Diag A U a) (hB : Diag B V b) (j : Fin m) :
    ∑ i, ‖(star U * V) i j‖ ^ 2 * (a i - b j) ^ 2 ≤ frob (A - B) := by
  rw [← hA.distance hB, Finset.sum_comm]
  exact Finset.single_le_sum (f := fun j => ∑ i, ‖(star U * V) i j‖ ^ 2 * (a i - b j) ^ 2)
    (fun _ _ => Finset.sum_nonneg fun _ _ => by positivity) (Finset.mem_univ j)

end

end Verif.Weinberg
