import Mathlib.Algebra.Order.Field.Rat
import Mathlib.Data.Rat.Cast.CharZero
import Mathlib.Data.Rat.BigOperators
import Mathlib.Tactic.FieldSimp
import Mathlib.Tactic.Ring
import Mathlib.Tactic.LinearCombination
import Mathlib.Tactic.NormNum
import Mathlib.Tactic.IntervalCases
import Mathlib.Algebra.BigOperators.Intervals
import Verif.Action.RK
import Verif.Action.RKSpec

/-!
# C67: the integration of the equation of motion
-/

set_option linter.unusedSectionVars false

namespace Verif.Action

open scoped BigOperators
open Spec

/-- The tableau of Cash and Karp. -/
def ckA : Nat → Nat → ℚ
  | 1, 0 => 1 / 5
  | 2, 0 => 3 / 40
  | 2, 1 => 9 / 40
  | 3, 0 => 3 / 10
  | 3, 1 => -9 / 10
  | 3, 2 => 6 / 5
  | 4, 0 => -11 / 54
  | 4, 1 => 5 / 2
  | 4, 2 => -70 / 27
  | 4, 3 => 35 / 27
  | 5, 0 => 1631 / 55296
  | 5, 1 => 175 / 512
  | 5, 2 => 575 / 13824
  | 5, 3 => 44275 / 110592
  | 5, 4 => 253 / 4096
  | _, _ => 0

/-- The nodes. -/
def ckC (i : Nat) : ℚ := ∑ j ∈ Finset.range 6, ckA i j

/-- The weights of fifth order. -/
def ckB : Nat → ℚ
  | 0 => 37 / 378
  | 2 => 250 / 621
  | 3 => 125 / 594
  | 5 => 512 / 1771
  | _ => 0

/-- The weights of fourth order. -/
def ckB4 : Nat → ℚ
  | 0 => 2825 / 27648
  | 2 => 18575 / 48384
  | 3 => 13525 / 55296
  | 4 => 277 / 14336
  | 5 => 1 / 4
  | _ => 0

/-- All trees with `n` vertices, up to the order of the subtrees. -/
def treesUpTo : Nat → List (List Tree)
  | 0 => [[]]
  | n + 1 =>
    let l := treesUpTo n
    l ++ [if n = 0 then [.dot] else
      (List.range n).flatMap fun a =>
        (l.getD (a + 1) []).flatMap fun t => (l.getD (n - a) []).map fun u => .graft t u]

theorem treesUpTo_length (n : Nat) : (treesUpTo n).length = n + 1 := by
  induction n with
  | zero => rfl
  | succ n ih => simp [treesUpTo, ih]

theorem treesUpTo_getD (n k : Nat) (h : k ≤ n) :
    (treesUpTo n).getD k [] = (treesUpTo k).getD k [] := by
  induction n with
  | zero => obtain rfl : k = 0 := by omega
            rfl
  | succ n ih =>
    rcases Nat.lt_or_eq_of_le h with h' | rfl
    · rw [← ih (by omega), treesUpTo]
      simp only [List.getD_eq_getElem?_getD]
      rw [List.getElem?_append_left (by rw [treesUpTo_length]; omega)]
    · rfl

theorem size_pos (t : Tree) : 0 < t.size := by
  induction t with
  | dot => simp [Tree.size]
  | graft t u ih1 ih2 => simp only [Tree.size]; omega

theorem mem_trees (t : Tree) : t ∈ (treesUpTo t.size).getD t.size [] := by
  induction t with
  | dot => simp [Tree.size, treesUpTo]
  | graft t u ih1 ih2 =>
    have h1 := size_pos t
    have h2 := size_pos u
    obtain ⟨n, hn⟩ : ∃ n, t.size + u.size = n + 1 := ⟨t.size + u.size - 1, by omega⟩
    simp only [Tree.size]
    rw [hn, treesUpTo]
    have hn0 : n ≠ 0 := by omega
    simp only [List.getD_eq_getElem?_getD]
    rw [List.getElem?_append_right (by rw [treesUpTo_length]), treesUpTo_length]
    simp only [Nat.sub_self, List.getElem?_cons_zero, Option.getD_some, hn0, if_false,
      List.mem_flatMap, List.mem_map, List.mem_range]
    refine ⟨t.size - 1, by omega, t, ?_, u, ?_, rfl⟩
    · rw [show t.size - 1 + 1 = t.size by omega]
      have := treesUpTo_getD n t.size (by omega)
      simp only [List.getD_eq_getElem?_getD] at this ih1
      rw [this]; exact ih1
    · rw [show n - (t.size - 1) = u.size by omega]
      have := treesUpTo_getD n u.size (by omega)
      simp only [List.getD_eq_getElem?_getD] at this ih2
      rw [this]; exact ih2

theorem hasOrder_of_check (p : Nat) (b : Nat → ℚ)
    (h : ∀ k ≤ p, ∀ t ∈ (treesUpTo k).getD k [], t.weight 6 ckA b = 1 / t.density) :
    HasOrder p 6 ckA b := by
  intro t ht
  exact h t.size ht t (mem_trees t)

/-- The tableau of the program has order five, the embedded one that estimates the error order four. -/
theorem C67_order : HasOrder 5 6 ckA ckB ∧ HasOrder 4 6 ckA ckB4 :=
  ⟨hasOrder_of_check 5 ckB (by decide +kernel), hasOrder_of_check 4 ckB4 (by decide +kernel)⟩

/-- The orders are not higher: five is the best of six stages, and the error estimate does not
vanish in fifth order. -/
theorem C67_order_sharp : ¬ HasOrder 6 6 ckA ckB ∧ ¬ HasOrder 5 6 ckA ckB4 := by
  constructor
  · intro h
    have := h (.graft (.graft (.graft (.graft (.graft .dot .dot) .dot) .dot) .dot) .dot) (by decide)
    exact absurd this (by decide +kernel)
  · intro h
    have := h (.graft (.graft (.graft (.graft .dot .dot) .dot) .dot) .dot) (by decide)
    exact absurd this (by decide +kernel)

variable {K : Type} [Field K]

section

variable [CharZero K]

/-- The step of the program is the step of this tableau, and its error estimate is the difference to
the step of the embedded tableau. -/
theorem C67_step (f : K → (Nat → K) → Nat → K) (y : Nat → K) (rho h : K) :
    IsStep 6 (fun i j => (ckA i j : K)) (fun i => (ckB i : K)) (fun i => (ckC i : K)) f rho h y
      (rk5Step f y (f rho y) rho h).1 ∧
    IsStep 6 (fun i j => (ckA i j : K)) (fun i => (ckB4 i : K)) (fun i => (ckC i : K)) f rho h y
      (fun i => (rk5Step f y (f rho y) rho h).1 i - (rk5Step f y (f rho y) rho h).2 i) := by
  have c0 : ckC 0 = 0 := by decide +kernel
  have c1 : ckC 1 = 1 / 5 := by decide +kernel
  have c2 : ckC 2 = 3 / 10 := by decide +kernel
  have c3 : ckC 3 = 3 / 5 := by decide +kernel
  have c4 : ckC 4 = 1 := by decide +kernel
  have c5 : ckC 5 = 7 / 8 := by decide +kernel
  set k1 := f rho y with hk1
  set ak2 := f (rho + 1 / 5 * h) (fun i => y i + 1 / 5 * h * k1 i) with hk2
  set ak3 := f (rho + 3 / 10 * h) (fun i => y i + h * (3 / 40 * k1 i + 9 / 40 * ak2 i)) with hk3
  set ak4 := f (rho + 3 / 5 * h)
    (fun i => y i + h * (3 / 10 * k1 i + -9 / 10 * ak2 i + 6 / 5 * ak3 i)) with hk4
  set ak5 := f (rho + 1 * h)
    (fun i => y i + h * (-11 / 54 * k1 i + 5 / 2 * ak2 i + -70 / 27 * ak3 i + 35 / 27 * ak4 i))
    with hk5
  set ak6 := f (rho + 7 / 8 * h)
    (fun i => y i + h * (1631 / 55296 * k1 i + 175 / 512 * ak2 i + 575 / 13824 * ak3 i
      + 44275 / 110592 * ak4 i + 253 / 4096 * ak5 i)) with hk6
  let k : Nat → Nat → K := fun i => match i with
    | 0 => k1 | 1 => ak2 | 2 => ak3 | 3 => ak4 | 4 => ak5 | _ => ak6
  have hk : ∀ i < 6, k i = f (rho + (ckC i : K) * h)
      (fun m => y m + h * ∑ j ∈ Finset.range i, (ckA i j : K) * k j m) := by
    intro i hi
    interval_cases i
    · simp only [k, c0]; rw [hk1]; congr 1
      · simp
      · funext m; simp
    · simp only [k, c1]; rw [hk2]; congr 1
      · norm_num
      · funext m; simp [ckA, k]; ring
    · simp only [k, c2]; rw [hk3]; congr 1
      · norm_num
      · funext m; simp [Finset.sum_range_succ, ckA, k]
    · simp only [k, c3]; rw [hk4]; congr 1
      · norm_num
      · funext m; simp [Finset.sum_range_succ, ckA, k]
    · simp only [k, c4]; rw [hk5]; congr 1
      · norm_num
      · funext m; simp [Finset.sum_range_succ, ckA, k]
    · simp only [k, c5]; rw [hk6]; congr 1
      · norm_num
      · funext m; simp [Finset.sum_range_succ, ckA, k]
  refine ⟨⟨k, hk, fun m => ?_⟩, ⟨k, hk, fun m => ?_⟩⟩
  · simp only [rk5Step, ← hk2, ← hk3, ← hk4, ← hk5, ← hk6]
    simp [Finset.sum_range_succ, ckB, k]
  · simp only [rk5Step, ← hk2, ← hk3, ← hk4, ← hk5, ← hk6]
    simp [Finset.sum_range_succ, ckB4, k]
    ring

/-- A right hand side that is a polynomial of degree four in `rho` is integrated exactly, with fourth
degree the limit of the error estimate: up to degree three it is zero. -/
theorem C67_quadrature (p q : Nat → K) (y : Nat → K) (rho h : K) (i : Nat) (hi : i < 2) :
    (rk5Step (fun x _ => pair (∑ k ∈ Finset.range 5, p k * x ^ k) (∑ k ∈ Finset.range 5, q k * x ^ k))
        y (pair (∑ k ∈ Finset.range 5, p k * rho ^ k) (∑ k ∈ Finset.range 5, q k * rho ^ k)) rho h).1 i
      = y i + ∑ k ∈ Finset.range 5, (if i = 0 then p k else q k)
        * ((rho + h) ^ (k + 1) - rho ^ (k + 1)) / (k + 1) ∧
    ((if i = 0 then p 4 else q 4) = 0 →
      (rk5Step (fun x _ => pair (∑ k ∈ Finset.range 5, p k * x ^ k)
        (∑ k ∈ Finset.range 5, q k * x ^ k)) y (pair (∑ k ∈ Finset.range 5, p k * rho ^ k)
        (∑ k ∈ Finset.range 5, q k * rho ^ k)) rho h).2 i = 0) := by
  have hh : i = 0 ∨ i = 1 := by omega
  rcases hh with rfl | rfl
  · constructor
    · simp only [rk5Step, pair, Finset.sum_range_succ, Finset.sum_range_zero, if_true]
      push_cast
      field_simp
      ring
    · intro h4
      simp only [if_true] at h4
      simp only [rk5Step, pair, Finset.sum_range_succ, Finset.sum_range_zero, if_true, h4]
      field_simp
      ring
  · constructor
    · simp only [rk5Step, pair, Finset.sum_range_succ, Finset.sum_range_zero, one_ne_zero, if_false]
      push_cast
      field_simp
      ring
    · intro h4
      simp only [one_ne_zero, if_false] at h4
      simp only [rk5Step, pair, Finset.sum_range_succ, Finset.sum_range_zero, one_ne_zero, if_false, h4]
      field_simp
      ring

/-- For `y' = λ y` the step is the exponential series up to the fifth power. -/
theorem C67_exponential (lam : K) (y : Nat → K) (rho h : K) (i : Nat) :
    (rk5Step (fun _ v j => lam * v j) y (fun j => lam * y j) rho h).1 i
      = y i * (1 + lam * h + (lam * h) ^ 2 / 2 + (lam * h) ^ 3 / 6 + (lam * h) ^ 4 / 24
        + (lam * h) ^ 5 / 120 + (lam * h) ^ 6 / 800) := by
  simp only [rk5Step]
  field_simp
  ring

variable [DecidableEq K]

/-- For a constant force `a` the program follows the exact solution `l = l0 + a rho² / (2 (1 + α))`,
and the error estimate is zero. -/
theorem C67_constant_force (a alpha l0 rho h : K) (ha : 1 + alpha ≠ 0)
    (hrho : ∀ c ∈ [(0 : K), 1 / 5, 3 / 10, 3 / 5, 1, 7 / 8], rho + c * h ≠ 0) :
    ∀ i < 2,
    (bounceStep id (fun _ => a) alpha rho (l0 + a * rho ^ 2 / (2 * (1 + alpha)))
      (a * rho / (1 + alpha)) h).1 i
      = pair (l0 + a * (rho + h) ^ 2 / (2 * (1 + alpha))) (a * (rho + h) / (1 + alpha)) i ∧
    (bounceStep id (fun _ => a) alpha rho (l0 + a * rho ^ 2 / (2 * (1 + alpha)))
      (a * rho / (1 + alpha)) h).2 i = 0 := by
  intro i hi
  -- the acceleration on the exact solution
  have hf : ∀ (x l v : K), x ≠ 0 → v = a * x / (1 + alpha) →
      d2ldrho2 (fun _ => a) alpha l x v = a / (1 + alpha) := by
    intro x l v hx hv
    unfold d2ldrho2
    split_ifs with h0
    · rw [hv, div_eq_zero_iff] at h0
      have : a = 0 := by
        rcases h0 with h0 | h0
        · exact (mul_eq_zero.1 h0).resolve_right hx
        · exact absurd h0 ha
      rw [this]; simp
    · rw [hv]; field_simp; ring
  have n0 := hrho 0 (by simp)
  have n1 := hrho (1 / 5) (by simp)
  have n2 := hrho (3 / 10) (by simp)
  have n3 := hrho (3 / 5) (by simp)
  have n4 := hrho 1 (by simp)
  have n5 := hrho (7 / 8) (by simp)
  simp only [zero_mul, add_zero] at n0
  have a1 := hf rho (l0 + a * rho ^ 2 / (2 * (1 + alpha))) (a * rho / (1 + alpha)) n0 rfl
  have h0 : ∀ b : K, pair b (a / (1 + alpha)) 1 = a / (1 + alpha) := fun b => by simp [pair]
  simp only [bounceStep, id, a1]
  have e : ∀ (x : K) (w : Nat → K), x ≠ 0 → w 1 = a * x / (1 + alpha) →
      auxDev (fun _ => a) alpha x w = pair (a * x / (1 + alpha)) (a / (1 + alpha)) := by
    intro x w hx hw
    unfold auxDev
    rw [hf x _ _ hx hw, hw]
  have p1 : ∀ u v : K, pair u v 1 = v := fun u v => by simp [pair]
  have p0 : ∀ u v : K, pair u v 0 = u := fun u v => by simp [pair]
  simp only [rk5Step]
  rw [e (rho + 1 / 5 * h) _ n1 (by simp only [p1]; field_simp)]
  rw [e (rho + 3 / 10 * h) _ n2 (by simp only [p1]; field_simp; ring)]
  rw [e (rho + 3 / 5 * h) _ n3 (by simp only [p1]; field_simp; ring)]
  rw [e (rho + 1 * h) _ n4 (by simp only [p1]; field_simp; ring)]
  rw [e (rho + 7 / 8 * h) _ n5 (by simp only [p1]; field_simp; ring)]
  have hh : i = 0 ∨ i = 1 := by omega
  rcases hh with rfl | rfl
  · simp only [p0]
    constructor
    · field_simp; ring
    · field_simp; ring
  · simp only [p1]
    constructor
    · field_simp; ring
    · ring

end

/-- The position advances by the step size, the state by the step size rounded to `float`: after a
step the state is not the solution at the new position, whatever the rounding did. -/
theorem C67_float_step_fails : ∃ (fl : ℚ → ℚ) (rho step : ℚ), fl rho = rho ∧ fl step ≠ step ∧
    (bounceStep fl (fun _ => 3) 2 rho (rho ^ 2 / 2) rho step).1 1 ≠ rho + step ∧
    (bounceStep fl (fun _ => 3) 2 rho (rho ^ 2 / 2) rho step).1 1 = rho + fl step := by
  refine ⟨fun x => if x = 1 / 10 then 13421773 / 134217728 else x, 1, 1 / 10, ?_⟩
  decide +kernel

/-- With the derivative of the potential instead of one third of it the acceleration at the centre is
not the one of the solution, `α = 2`. -/
theorem C67_centre_fails : ∃ (a l0 : ℚ), d2ldrho2 (fun _ => a) 2 l0 0 0 ≠ a / (1 + 2) :=
  ⟨3, 0, by decide +kernel⟩

example : ∀ c ∈ [(0 : ℚ), 1 / 5, 3 / 10, 3 / 5, 1, 7 / 8], (1 : ℚ) + c * (1 / 100) ≠ 0 := by
  decide +kernel

end Verif.Action
