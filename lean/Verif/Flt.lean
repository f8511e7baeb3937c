import Mathlib.Order.Defs.LinearOrder

/-!
# Floating-point values with NaN

A value is either NaN or an element of a linearly ordered type `α` (rounding is not modelled;
`α` may contain infinities).  As in C++ every comparison with NaN is false, except `!=`.
-/

namespace Verif

inductive Flt (α : Type) where
  | nan
  | fin (a : α)
  deriving DecidableEq, Repr

namespace Flt

variable {α : Type} [LinearOrder α]

/-- `a < b` -/
def lt : Flt α → Flt α → Bool
  | fin a, fin b => decide (a < b)
  | _, _ => false

/-- `a <= b` -/
def le : Flt α → Flt α → Bool
  | fin a, fin b => decide (a ≤ b)
  | _, _ => false

/-- `a > b` -/
def gt (a b : Flt α) : Bool := lt b a

/-- `a >= b` -/
def ge (a b : Flt α) : Bool := le b a

/-- `a != b` -/
def ne : Flt α → Flt α → Bool
  | fin a, fin b => decide (a ≠ b)
  | _, _ => true

/-- apply an operation; NaN propagates -/
def map {β : Type} (f : α → β) : Flt α → Flt β
  | nan => nan
  | fin a => fin (f a)

@[simp] theorem lt_fin (a b : α) : lt (fin a) (fin b) = true ↔ a < b := by simp [lt]
@[simp] theorem le_fin (a b : α) : le (fin a) (fin b) = true ↔ a ≤ b := by simp [le]
@[simp] theorem gt_fin (a b : α) : gt (fin a) (fin b) = true ↔ b < a := by simp [gt]
@[simp] theorem ge_fin (a b : α) : ge (fin a) (fin b) = true ↔ b ≤ a := by simp [ge]
@[simp] theorem ne_fin (a b : α) : ne (fin a) (fin b) = true ↔ a ≠ b := by simp [ne]
@[simp] theorem ne_nan_left (b : Flt α) : ne nan b = true := rfl
@[simp] theorem ne_nan_right (a : Flt α) : ne a nan = true := by cases a <;> rfl
@[simp] theorem lt_nan_left (b : Flt α) : lt nan b = false := rfl
@[simp] theorem lt_nan_right (a : Flt α) : lt a nan = false := by cases a <;> rfl
@[simp] theorem le_nan_left (b : Flt α) : le nan b = false := rfl
@[simp] theorem le_nan_right (a : Flt α) : le a nan = false := by cases a <;> rfl
@[simp] theorem gt_nan_left (b : Flt α) : gt nan b = false := by simp [gt]
@[simp] theorem gt_nan_right (a : Flt α) : gt a nan = false := by simp [gt]
@[simp] theorem ge_nan_left (b : Flt α) : ge nan b = false := by simp [ge]
@[simp] theorem ge_nan_right (a : Flt α) : ge a nan = false := by simp [ge]

end Flt
end Verif
