/-!
# Specification for the utility functions
-/

namespace Verif.Utility.Spec

/-- Tokens written one after the other with the delimiter between them. -/
def join (d : Char) : List (List Char) → List Char
  | [] => []
  | [t] => t
  | t :: u :: ts => t ++ d :: join d (u :: ts)

/-- The mathematical factorial. -/
def fact : Nat → Nat
  | 0 => 1
  | n + 1 => (n + 1) * fact n

/-- `A` is a matrix with `r` rows and `c` columns. -/
def IsMatrix {α : Type} (A : List (List α)) (r c : Nat) : Prop :=
  A.length = r ∧ ∀ row ∈ A, row.length = c

/-- Sum of a list from the left, starting from zero. -/
def sumFrom {α : Type} [Add α] [Zero α] : List α → α := fun l => l.foldl (· + ·) 0

end Verif.Utility.Spec
