import Mathlib.Data.Rat.Defs
import Mathlib.Algebra.Order.Field.Rat

/-!
# What `PotPlotter` is expected to print
-/

namespace Verif.Plotter.Spec

/-- The values of a field in a grid: `n + 1` values from `low` to `high` in equal steps, and the value of the
reference point if no points are requested. -/
def axis (low high : ℚ) (n : Nat) (reference : ℚ) : List ℚ :=
  if n = 0 then [reference] else (List.range (n + 1)).map fun i : Nat => low + (high - low) * (i : ℚ) / n

/-- All combinations. -/
def grid : List (List ℚ) → List (List ℚ)
  | [] => [[]]
  | A :: As => A.flatMap fun x => (grid As).map fun p => x :: p

end Verif.Plotter.Spec
