import Verif.Potential.TreeSpec
import Mathlib.Analysis.Calculus.Deriv.Mul
import Mathlib.Analysis.Calculus.Deriv.Add
import Mathlib.Analysis.Calculus.Deriv.Pow
import Mathlib.Tactic.Ring
import Mathlib.Tactic.FieldSimp
import Mathlib.Data.List.Permutation

/-!
# The tree-level potential, its gradient and the scalar mass matrix (C30, C31)
-/

set_option linter.unusedSectionVars false

namespace Verif.Potential

open Verif Outcome
open Spec (polynomial Symmetric)

/-! ## C30: value and gradient -/

section Value

variable {K : Type} [Field K] [DecidableEq K] {n : Nat}

theorem counter0_eq (c : Curv n K) (v : FVec n K) : counter0 c v = polynomial c v := by
  simp only [counter0, polynomial, Finset.sum_add_distrib, Finset.mul_sum, mul_assoc, add_assoc]

theorem vTree0_eq_counter0 (c : Curv n K) (v : FVec n K) : vTree0 c v = counter0 c v := by
  unfold vTree0 counter0
  refine Finset.sum_congr rfl fun i _ => ?_
  by_cases hi : v i = 0
  · simp [hi]
  · rw [if_pos hi]
    congr 1
    refine Finset.sum_congr rfl fun j _ => ?_
    by_cases hj : v j = 0
    · simp [hj]
    · rw [if_pos hj]

/-- `VTree(v)` evaluated from the tensors is the polynomial they define; leaving out vanishing
fields changes nothing. -/
theorem C30_value (us : Bool) (s : FVec n K → K) (c : Curv n K) (v : FVec n K)
    (h : us = true → ∀ w, s w = polynomial c w) (force : Bool) :
    vTree us s c v 0 force = polynomial c v := by
  unfold vTree
  cases us
  · simp [vTree0_eq_counter0, counter0_eq]
  · cases force
    · simpa using h rfl v
    · simp [vTree0_eq_counter0, counter0_eq]

/-- The same for the counterterm potential. -/
theorem C30_counterterm_value (us : Bool) (s : FVec n K → K) (c : Curv n K) (v : FVec n K)
    (h : us = true → ∀ w, s w = polynomial c w) (force : Bool) :
    counterTerm us s c v 0 force = polynomial c v := by
  unfold counterTerm
  cases us
  · simp [counter0_eq]
  · cases force
    · simpa using h rfl v
    · simp [counter0_eq]

theorem fieldIndex_succ (i : Fin n) : fieldIndex n ((i : Int) + 1) = some i := by
  have := i.2
  rw [fieldIndex, dif_pos (by omega)]
  simp

theorem fieldIndex_eq_none {d : Int} (h : d ≤ 0 ∨ n < d) : fieldIndex n d = none := by
  rw [fieldIndex, dif_neg (by omega)]

/-- Derivative modes other than `1 … NHiggs` give zero (there is no explicit dependence on the
temperature). -/
theorem C30_other_modes (us us' : Bool) (s s' : FVec n K → K) (c : Curv n K) (v : FVec n K)
    (d : Int) (h : d < 0 ∨ n < d) (f : Bool) :
    vTree us s c v d f = 0 ∧ counterTerm us' s' c v d f = 0 := by
  have h0 : d ≠ 0 := by omega
  have hn : fieldIndex n d = none := fieldIndex_eq_none (by omega)
  constructor
  · simp [vTree, h0, hn]
  · simp [counterTerm, h0, hn]

end Value

section Deriv

variable {n : Nat}

theorem hasDerivAt_polynomial (c : Curv n ℝ) (hc : Symmetric c) (x : ℝ → FVec n ℝ) (w : FVec n ℝ)
    (t : ℝ) (hx : ∀ i, HasDerivAt (fun s => x s i) (w i) t) :
    HasDerivAt (fun s => polynomial c (x s)) (∑ i, grad c (x t) i * w i) t := by
  have h1 : HasDerivAt (fun s => ∑ i, c.L1 i * x s i) (∑ i, c.L1 i * w i) t :=
    HasDerivAt.fun_sum fun i _ => (hx i).const_mul _
  have h2 : HasDerivAt (fun s => ∑ i, ∑ j, c.L2 i j * x s i * x s j)
      (∑ i, ∑ j, ((c.L2 i j * w i) * x t j + c.L2 i j * x t i * w j)) t :=
    HasDerivAt.fun_sum fun i _ => HasDerivAt.fun_sum fun j _ =>
      ((hx i).const_mul _).fun_mul (hx j)
  have h3 : HasDerivAt (fun s => ∑ i, ∑ j, ∑ k, c.L3 i j k * x s i * x s j * x s k)
      (∑ i, ∑ j, ∑ k, (((c.L3 i j k * w i) * x t j + c.L3 i j k * x t i * w j) * x t k +
        c.L3 i j k * x t i * x t j * w k)) t :=
    HasDerivAt.fun_sum fun i _ => HasDerivAt.fun_sum fun j _ => HasDerivAt.fun_sum fun k _ =>
      (((hx i).const_mul _).fun_mul (hx j)).fun_mul (hx k)
  have h4 : HasDerivAt
      (fun s => ∑ i, ∑ j, ∑ k, ∑ l, c.L4 i j k l * x s i * x s j * x s k * x s l)
      (∑ i, ∑ j, ∑ k, ∑ l, ((((c.L4 i j k l * w i) * x t j + c.L4 i j k l * x t i * w j) * x t k +
        c.L4 i j k l * x t i * x t j * w k) * x t l +
        c.L4 i j k l * x t i * x t j * x t k * w l)) t :=
    HasDerivAt.fun_sum fun i _ => HasDerivAt.fun_sum fun j _ => HasDerivAt.fun_sum fun k _ =>
      HasDerivAt.fun_sum fun l _ =>
      ((((hx i).const_mul _).fun_mul (hx j)).fun_mul (hx k)).fun_mul (hx l)
  have h := ((h1.fun_add (h2.const_mul (1 / 2))).fun_add (h3.const_mul (1 / 6))).fun_add
    (h4.const_mul (1 / 24))
  unfold polynomial
  refine h.congr_deriv ?_
  have e2 : ∑ i, ∑ j, c.L2 i j * x t i * w j = ∑ i, ∑ j, c.L2 i j * w i * x t j := by
    rw [Finset.sum_comm]
    exact Finset.sum_congr rfl fun i _ => Finset.sum_congr rfl fun j _ => by
      rw [hc.s2 j i]; ring
  have e3a : ∑ i, ∑ j, ∑ k, c.L3 i j k * x t i * w j * x t k =
      ∑ i, ∑ j, ∑ k, c.L3 i j k * w i * x t j * x t k := by
    rw [Finset.sum_comm]
    exact Finset.sum_congr rfl fun i _ => Finset.sum_congr rfl fun j _ =>
      Finset.sum_congr rfl fun k _ => by rw [hc.s3a j i]; ring
  have e3b : ∑ i, ∑ j, ∑ k, c.L3 i j k * x t i * x t j * w k =
      ∑ i, ∑ j, ∑ k, c.L3 i j k * w i * x t j * x t k := by
    rw [← e3a]
    refine Finset.sum_congr rfl fun i _ => ?_
    rw [Finset.sum_comm]
    exact Finset.sum_congr rfl fun j _ =>
      Finset.sum_congr rfl fun k _ => by rw [hc.s3b i k j]; ring
  have e4a : ∑ i, ∑ j, ∑ k, ∑ l, c.L4 i j k l * x t i * w j * x t k * x t l =
      ∑ i, ∑ j, ∑ k, ∑ l, c.L4 i j k l * w i * x t j * x t k * x t l := by
    rw [Finset.sum_comm]
    exact Finset.sum_congr rfl fun i _ => Finset.sum_congr rfl fun j _ =>
      Finset.sum_congr rfl fun k _ => Finset.sum_congr rfl fun l _ => by rw [hc.s4a j i]; ring
  have e4b : ∑ i, ∑ j, ∑ k, ∑ l, c.L4 i j k l * x t i * x t j * w k * x t l =
      ∑ i, ∑ j, ∑ k, ∑ l, c.L4 i j k l * w i * x t j * x t k * x t l := by
    rw [← e4a]
    refine Finset.sum_congr rfl fun i _ => ?_
    rw [Finset.sum_comm]
    exact Finset.sum_congr rfl fun j _ => Finset.sum_congr rfl fun k _ =>
      Finset.sum_congr rfl fun l _ => by rw [hc.s4b i k j]; ring
  have e4c : ∑ i, ∑ j, ∑ k, ∑ l, c.L4 i j k l * x t i * x t j * x t k * w l =
      ∑ i, ∑ j, ∑ k, ∑ l, c.L4 i j k l * w i * x t j * x t k * x t l := by
    rw [← e4b]
    refine Finset.sum_congr rfl fun i _ => Finset.sum_congr rfl fun j _ => ?_
    rw [Finset.sum_comm]
    exact Finset.sum_congr rfl fun k _ =>
      Finset.sum_congr rfl fun l _ => by rw [hc.s4c i j l k]; ring
  simp only [add_mul, Finset.sum_add_distrib]
  rw [e2, e3a, e3b, e4a, e4b, e4c]
  have g : ∑ i, grad c (x t) i * w i =
      (∑ i, c.L1 i * w i) + (∑ i, ∑ j, c.L2 i j * w i * x t j) +
      1 / 2 * (∑ i, ∑ j, ∑ k, c.L3 i j k * w i * x t j * x t k) +
      1 / 6 * (∑ i, ∑ j, ∑ k, ∑ l, c.L4 i j k l * w i * x t j * x t k * x t l) := by
    simp only [grad, Finset.mul_sum, ← Finset.sum_add_distrib]
    refine Finset.sum_congr rfl fun i _ => ?_
    rw [add_mul, Finset.sum_mul, add_assoc, add_assoc]
    congr 1
    simp only [← Finset.sum_add_distrib]
    refine Finset.sum_congr rfl fun j _ => ?_
    rw [add_mul, Finset.sum_mul]
    congr 1
    · ring
    refine Finset.sum_congr rfl fun k _ => ?_
    rw [add_mul, Finset.sum_mul]
    congr 1
    · ring
    exact Finset.sum_congr rfl fun l _ => by ring
  rw [g]
  ring

/-- Along every differentiable curve in field space the tree-level potential changes as its
derivative modes `1 … NHiggs` say. -/
theorem C30_gradient (us : Bool) (s : FVec n ℝ → ℝ) (c : Curv n ℝ) (hc : Symmetric c)
    (h : us = true → ∀ w, s w = polynomial c w) (force : Bool) (x : ℝ → FVec n ℝ) (w : FVec n ℝ)
    (t : ℝ) (hx : ∀ i, HasDerivAt (fun r => x r i) (w i) t) :
    HasDerivAt (fun r => vTree us s c (x r) 0 force)
      (∑ i : Fin n, vTree us s c (x t) ((i : Int) + 1) force * w i) t := by
  have e : ∀ i : Fin n, vTree us s c (x t) ((i : Int) + 1) force = grad c (x t) i := by
    intro i
    have h0 : ¬ ((i : Int) + 1 = 0) := by omega
    have h1 : (((i : Int) + 1) == 0) = false := by simpa using h0
    simp [vTree, h0, h1, fieldIndex_succ]
  simp only [e]
  have : (fun r => vTree us s c (x r) 0 force) = fun r => polynomial c (x r) := by
    funext r; exact C30_value us s c (x r) h force
  rw [this]
  exact hasDerivAt_polynomial c hc x w t hx

/-- The same for the counterterm potential; `NablaVCT` is its gradient. -/
theorem C30_counterterm_gradient (us : Bool) (s : FVec n ℝ → ℝ) (c : Curv n ℝ) (hc : Symmetric c)
    (h : us = true → ∀ w, s w = polynomial c w) (force : Bool) (x : ℝ → FVec n ℝ) (w : FVec n ℝ)
    (t : ℝ) (hx : ∀ i, HasDerivAt (fun r => x r i) (w i) t) :
    HasDerivAt (fun r => counterTerm us s c (x r) 0 force) (∑ i, nablaVCT c (x t) i * w i) t ∧
    ∀ i : Fin n, counterTerm us s c (x t) ((i : Int) + 1) force = nablaVCT c (x t) i := by
  constructor
  · have : (fun r => counterTerm us s c (x r) 0 force) = fun r => polynomial c (x r) := by
      funext r; exact C30_counterterm_value us s c (x r) h force
    rw [this]
    exact hasDerivAt_polynomial c hc x w t hx
  · intro i
    have h0 : ¬ ((i : Int) + 1 = 0) := by omega
    have h1 : (((i : Int) + 1) == 0) = false := by simpa using h0
    simp [counterTerm, h0, h1, fieldIndex_succ, nablaVCT]

/-- In particular mode `i` is the partial derivative with respect to field `i`. -/
theorem C30_field_derivative (c : Curv n ℝ) (hc : Symmetric c) (v : FVec n ℝ) (i : Fin n)
    (force : Bool) :
    HasDerivAt (fun y => vTree false (fun _ => 0) c (Function.update v i y) 0 force)
      (vTree false (fun _ => 0) c v ((i : Int) + 1) force) (v i) := by
  have h := C30_gradient false (fun _ => 0) c hc (by simp) force (fun y => Function.update v i y)
    (Pi.single i 1) (v i) (by
      intro j
      by_cases hj : j = i
      · subst hj; simpa using hasDerivAt_id' (v j)
      · simpa [Function.update_of_ne hj, Pi.single_eq_of_ne hj] using
          hasDerivAt_const (v i) (v j))
  simpa [Finset.sum_eq_single i, Pi.single_apply] using h

/-! ## C31: the mass matrix -/

/-- The scalar mass matrix is symmetric for every vacuum and temperature, also for tensors and
thermal masses that are not. -/
theorem C31_symmetric (c : Curv n ℝ) (d : Fin n → Fin n → ℝ) (v : FVec n ℝ) (T : ℝ) :
    ∃ M, higgsMassMatrix c d v T 0 = ok M ∧ ∀ i j, M i j = M j i := by
  refine ⟨mass0 c d v T, by simp [higgsMassMatrix], fun i j => ?_⟩
  unfold mass0
  rcases lt_trichotomy i j with h | h | h
  · rw [if_pos h.le, if_neg (not_le.2 h)]
  · rw [h]
  · rw [if_neg (not_le.2 h), if_pos h.le]

theorem mass0_eq (c : Curv n ℝ) (hc : Symmetric c) (d : Fin n → Fin n → ℝ)
    (hd : ∀ i j, d i j = d j i) (v : FVec n ℝ) (T : ℝ) (i j : Fin n) :
    mass0 c d v T i j = hessianCT c v i j + d i j * T ^ 2 := by
  have hu : ∀ i j, massUpper c d v T i j = hessianCT c v i j + d i j * T ^ 2 := by
    intro i j
    unfold massUpper hessianCT
    by_cases hT : T = 0
    · simp [hT]
    · simp [hT]
  have hs : hessianCT c v i j = hessianCT c v j i := by
    unfold hessianCT
    rw [hc.s2 i j]
    congr 1
    refine Finset.sum_congr rfl fun k _ => ?_
    rw [hc.s3a i j]
    congr 1
    exact Finset.sum_congr rfl fun l _ => by rw [hc.s4a i j]
  unfold mass0
  split
  · exact hu i j
  · rw [hu j i, hs, hd i j]

theorem hasDerivAt_grad (c : Curv n ℝ) (hc : Symmetric c) (x : ℝ → FVec n ℝ) (w : FVec n ℝ)
    (t : ℝ) (hx : ∀ i, HasDerivAt (fun r => x r i) (w i) t) (i : Fin n) :
    HasDerivAt (fun r => grad c (x r) i) (∑ j, hessianCT c (x t) i j * w j) t := by
  have h2 : HasDerivAt (fun s => ∑ j, c.L2 i j * x s j) (∑ j, c.L2 i j * w j) t :=
    HasDerivAt.fun_sum fun j _ => (hx j).const_mul _
  have h3 : HasDerivAt (fun s => ∑ j, ∑ k, 1 / 2 * c.L3 i j k * x s j * x s k)
      (∑ j, ∑ k, ((1 / 2 * c.L3 i j k * w j) * x t k + 1 / 2 * c.L3 i j k * x t j * w k)) t :=
    HasDerivAt.fun_sum fun j _ => HasDerivAt.fun_sum fun k _ =>
      ((hx j).const_mul _).fun_mul (hx k)
  have h4 : HasDerivAt (fun s => ∑ j, ∑ k, ∑ l, 1 / 6 * c.L4 i j k l * x s j * x s k * x s l)
      (∑ j, ∑ k, ∑ l, (((1 / 6 * c.L4 i j k l * w j) * x t k +
        1 / 6 * c.L4 i j k l * x t j * w k) * x t l +
        1 / 6 * c.L4 i j k l * x t j * x t k * w l)) t :=
    HasDerivAt.fun_sum fun j _ => HasDerivAt.fun_sum fun k _ => HasDerivAt.fun_sum fun l _ =>
      (((hx j).const_mul _).fun_mul (hx k)).fun_mul (hx l)
  have h := ((h2.fun_add h3).fun_add h4).const_add (c.L1 i)
  have ef : (fun r => grad c (x r) i) = fun s => c.L1 i + ((∑ j, c.L2 i j * x s j) +
      (∑ j, ∑ k, 1 / 2 * c.L3 i j k * x s j * x s k) +
      ∑ j, ∑ k, ∑ l, 1 / 6 * c.L4 i j k l * x s j * x s k * x s l) := by
    funext s
    simp only [grad, Finset.sum_add_distrib, add_assoc]
  rw [ef]
  refine h.congr_deriv ?_
  simp only [Finset.sum_add_distrib, add_mul]
  have e3 : ∑ j, ∑ k, 1 / 2 * c.L3 i j k * x t j * w k =
      ∑ j, ∑ k, 1 / 2 * c.L3 i j k * w j * x t k := by
    rw [Finset.sum_comm]
    exact Finset.sum_congr rfl fun j _ => Finset.sum_congr rfl fun k _ => by
      rw [hc.s3b i k j]; ring
  have e4a : ∑ j, ∑ k, ∑ l, 1 / 6 * c.L4 i j k l * x t j * w k * x t l =
      ∑ j, ∑ k, ∑ l, 1 / 6 * c.L4 i j k l * w j * x t k * x t l := by
    rw [Finset.sum_comm]
    exact Finset.sum_congr rfl fun j _ => Finset.sum_congr rfl fun k _ =>
      Finset.sum_congr rfl fun l _ => by rw [hc.s4b i k j]; ring
  have e4b : ∑ j, ∑ k, ∑ l, 1 / 6 * c.L4 i j k l * x t j * x t k * w l =
      ∑ j, ∑ k, ∑ l, 1 / 6 * c.L4 i j k l * w j * x t k * x t l := by
    rw [← e4a]
    refine Finset.sum_congr rfl fun j _ => ?_
    rw [Finset.sum_comm]
    exact Finset.sum_congr rfl fun k _ =>
      Finset.sum_congr rfl fun l _ => by rw [hc.s4c i j l k]; ring
  rw [e3, e4a, e4b]
  simp only [← Finset.sum_add_distrib]
  refine Finset.sum_congr rfl fun j _ => ?_
  rw [hessianCT, add_mul, Finset.sum_mul, add_assoc]
  congr 1
  simp only [← Finset.sum_add_distrib]
  refine Finset.sum_congr rfl fun k _ => ?_
  rw [add_mul, Finset.sum_mul]
  congr 1
  · ring
  · exact Finset.sum_congr rfl fun l _ => by ring

/-- At zero temperature the scalar mass matrix is the matrix of second derivatives of the
tree-level potential: along every curve the gradient changes by the matrix times the velocity. -/
theorem C31_hessian (c : Curv n ℝ) (hc : Symmetric c) (d : Fin n → Fin n → ℝ)
    (hd : ∀ i j, d i j = d j i) (x : ℝ → FVec n ℝ) (w : FVec n ℝ) (t : ℝ)
    (hx : ∀ i, HasDerivAt (fun r => x r i) (w i) t) (us : Bool) (s : FVec n ℝ → ℝ) (force : Bool)
    (i : Fin n) :
    ∃ M, higgsMassMatrix c d (x t) 0 0 = ok M ∧
      HasDerivAt (fun r => vTree us s c (x r) ((i : Int) + 1) force) (∑ j, M i j * w j) t := by
  refine ⟨mass0 c d (x t) 0, by simp [higgsMassMatrix], ?_⟩
  have e : (fun r => vTree us s c (x r) ((i : Int) + 1) force) = fun r => grad c (x r) i := by
    funext r
    have h0 : ¬ ((i : Int) + 1 = 0) := by omega
    have h1 : (((i : Int) + 1) == 0) = false := by simpa using h0
    simp [vTree, h0, h1, fieldIndex_succ]
  rw [e]
  simp only [mass0_eq c hc d hd]
  simpa using hasDerivAt_grad c hc x w t hx i

/-- `HessianCT` is the matrix of second derivatives of the counterterm potential. -/
theorem C31_hessian_counterterm (c : Curv n ℝ) (hc : Symmetric c) (x : ℝ → FVec n ℝ)
    (w : FVec n ℝ) (t : ℝ) (hx : ∀ i, HasDerivAt (fun r => x r i) (w i) t) (i : Fin n) :
    HasDerivAt (fun r => nablaVCT c (x r) i) (∑ j, hessianCT c (x t) i j * w j) t :=
  hasDerivAt_grad c hc x w t hx i

/-- The derivative modes of the mass matrix are its derivatives: mode `x` with respect to field
`x`, mode `-1` with respect to the temperature, also at temperature zero. -/
theorem C31_derivative_modes (c : Curv n ℝ) (hc : Symmetric c) (d : Fin n → Fin n → ℝ)
    (hd : ∀ i j, d i j = d j i) (x : ℝ → FVec n ℝ) (T : ℝ → ℝ) (w : FVec n ℝ) (T' t : ℝ)
    (hx : ∀ i, HasDerivAt (fun r => x r i) (w i) t) (hT : HasDerivAt T T' t) (i j : Fin n) :
    ∃ (M : Fin n → Fin n → Fin n → ℝ) (N : Fin n → Fin n → ℝ),
      (∀ k : Fin n, higgsMassMatrix c d (x t) (T t) ((k : Int) + 1) = ok (M k)) ∧
      higgsMassMatrix c d (x t) (T t) (-1) = ok N ∧
      HasDerivAt (fun r => mass0 c d (x r) (T r) i j) ((∑ k, M k i j * w k) + N i j * T') t := by
  refine ⟨fun k => massD c (x t) k, massT d (T t), fun k => ?_, ?_, ?_⟩
  · have h0 : ¬ ((k : Int) + 1 = 0) := by omega
    simp [higgsMassMatrix, h0, fieldIndex_succ]
  · simp [higgsMassMatrix, fieldIndex_eq_none (n := n) (d := -1) (by omega)]
  simp only [mass0_eq c hc d hd]
  refine HasDerivAt.fun_add ?_ ?_
  · have h3 : HasDerivAt (fun s => ∑ k, c.L3 i j k * x s k) (∑ k, c.L3 i j k * w k) t :=
      HasDerivAt.fun_sum fun k _ => (hx k).const_mul _
    have h4 : HasDerivAt (fun s => ∑ k, ∑ l, 1 / 2 * c.L4 i j k l * x s k * x s l)
        (∑ k, ∑ l, ((1 / 2 * c.L4 i j k l * w k) * x t l + 1 / 2 * c.L4 i j k l * x t k * w l)) t :=
      HasDerivAt.fun_sum fun k _ => HasDerivAt.fun_sum fun l _ =>
        ((hx k).const_mul _).fun_mul (hx l)
    have h := (h3.fun_add h4).const_add (c.L2 i j)
    have ef : (fun r => hessianCT c (x r) i j) = fun s => c.L2 i j + ((∑ k, c.L3 i j k * x s k) +
        ∑ k, ∑ l, 1 / 2 * c.L4 i j k l * x s k * x s l) := by
      funext s
      simp only [hessianCT, Finset.sum_add_distrib]
    rw [ef]
    refine h.congr_deriv ?_
    have e4 : ∑ k, ∑ l, 1 / 2 * c.L4 i j k l * x t k * w l =
        ∑ k, ∑ l, 1 / 2 * c.L4 i j k l * w k * x t l := by
      rw [Finset.sum_comm]
      exact Finset.sum_congr rfl fun k _ => Finset.sum_congr rfl fun l _ => by
        rw [hc.s4c i j l k]; ring
    simp only [Finset.sum_add_distrib]
    rw [e4]
    simp only [← Finset.sum_add_distrib]
    refine Finset.sum_congr rfl fun k _ => ?_
    rw [massD, add_mul, Finset.sum_mul]
    congr 1
    exact Finset.sum_congr rfl fun l _ => by ring
  · have h := (hT.fun_pow 2).const_mul (d i j)
    refine h.congr_deriv ?_
    simp [massT]
    ring

end Deriv

/-- A symmetric quartic potential of two fields meets the hypotheses. -/
example : Symmetric (n := 2) (K := ℝ)
    { L1 := fun i => i.val, L2 := fun i j => i.val + j.val, L3 := fun i j k => i.val * j.val * k.val,
      L4 := fun i j k l => i.val + j.val + k.val + l.val } where
  s2 i j := by ring
  s3a i j k := by ring
  s3b i j k := by ring
  s4a i j k l := by ring
  s4b i j k l := by ring
  s4c i j k l := by ring

/-- Without symmetry the derivative mode is not the derivative (one field is enough for the value
of the tensor to matter only through its symmetric part): `V = ½ (φ₀ φ₁)` with `L2_01 = 1`,
`L2_10 = 0` has derivative `½ φ₁`, mode 1 gives `φ₁`. -/
example : let c : Curv 2 ℚ := ⟨fun _ => 0, fun i j => if i = 0 ∧ j = 1 then 1 else 0,
      fun _ _ _ => 0, fun _ _ _ _ => 0⟩
    vTree false (fun _ => 0) c ![3, 4] 0 false = 6 ∧
      vTree false (fun _ => 0) c ![3, 4] 1 false = 4 := by
  decide +kernel

end Verif.Potential
