import Mathlib.GroupTheory.Perm.Basic
import Mathlib.Data.List.OfFn
import Verif.Check.Model

/-!
# Symmetric tensors

A tensor with the dimensions `m × n × …` is the list of the lists of its entries.  It is symmetric
if permuting the indices changes nothing, and it contains numbers only if no entry is NaN.
-/

namespace Verif.Check.Spec

open Verif

/-- A double or complex double without NaN. -/
class HasNaN (E : Type) where
  number : E → Prop

instance (α : Type) : HasNaN (Flt α) := ⟨fun a => a ≠ .nan⟩
instance (α : Type) : HasNaN (Flt α × Flt α) := ⟨fun a => a.1 ≠ .nan ∧ a.2 ≠ .nan⟩

open Classical in
/-- A test passes if `p` holds, and fails otherwise. -/
noncomputable def verdict (p : Prop) : TestResult := if p then .pass else .fail

variable {E : Type}

/-- The matrix with the entries `t i j` as a vector of vectors. -/
def table2 {m n : Nat} (t : Fin m → Fin n → E) : List (List E) :=
  List.ofFn fun i => List.ofFn fun j => t i j

/-- The same with three indices. -/
def table3 {m n o : Nat} (t : Fin m → Fin n → Fin o → E) : List (List (List E)) :=
  List.ofFn fun i => table2 (t i)

/-- The same with four indices. -/
def table4 {m n o p : Nat} (t : Fin m → Fin n → Fin o → Fin p → E) :
    List (List (List (List E))) := List.ofFn fun i => table3 (t i)

variable [HasNaN E]

/-- A symmetric quadratic matrix of numbers. -/
def Symmetric2 (T : List (List E)) : Prop := ∃ (n : Nat) (t : Fin n → Fin n → E), T = table2 t ∧
  (∀ i j, HasNaN.number (t i j)) ∧ ∀ i j, t i j = t j i

/-- A tensor with three indices that is symmetric under all permutations of them. -/
def Symmetric3 (T : List (List (List E))) : Prop :=
  ∃ (n : Nat) (t : Fin n → Fin n → Fin n → E), T = table3 t ∧
    (∀ i j k, HasNaN.number (t i j k)) ∧
    ∀ (σ : Equiv.Perm (Fin 3)) (x : Fin 3 → Fin n),
      t (x (σ 0)) (x (σ 1)) (x (σ 2)) = t (x 0) (x 1) (x 2)

/-- A tensor with four indices that is symmetric under all permutations of them. -/
def Symmetric4 (T : List (List (List (List E)))) : Prop :=
  ∃ (n : Nat) (t : Fin n → Fin n → Fin n → Fin n → E), T = table4 t ∧
    (∀ i j k l, HasNaN.number (t i j k l)) ∧
    ∀ (σ : Equiv.Perm (Fin 4)) (x : Fin 4 → Fin n),
      t (x (σ 0)) (x (σ 1)) (x (σ 2)) (x (σ 3)) = t (x 0) (x 1) (x 2) (x 3)

/-- A tensor that is symmetric in two fermion indices, for a number `h` of scalars. -/
def FermionSymmetric (T : List (List (List E))) : Prop :=
  ∃ (n h : Nat) (t : Fin n → Fin n → Fin h → E), T = table3 t ∧
    (∀ i j k, HasNaN.number (t i j k)) ∧ ∀ i j k, t i j k = t j i k

/-- A tensor that is symmetric in two gauge and in two scalar indices, for a positive number `h` of
scalars. -/
def GaugeSymmetric (T : List (List (List (List E)))) : Prop :=
  ∃ (n h : Nat) (t : Fin n → Fin n → Fin h → Fin h → E), T = table4 t ∧ (n = 0 ∨ 0 < h) ∧
    (∀ a b i j, HasNaN.number (t a b i j)) ∧ ∀ a b i j, t a b i j = t b a i j ∧ t a b i j = t a b j i

end Verif.Check.Spec
