import Verif.Lagrangian.Coded
import Verif.Lagrangian.CxSM.Props

/-!
# Symmetry of the tensors of the standard model with a complex singlet

The values of the tables are numbered so that the symmetry can be tested with the numbers alone.
-/

set_option linter.unusedSectionVars false
set_option linter.unusedVariables false

namespace Verif.Lagrangian.CxSM

open Verif.Potential

/-- The numbered values. -/
noncomputable def l2Value (p : Par) : Nat → ℝ
  | 0 => p.msq / 2
  | 1 => p.Reb1 / 2 + p.b2 / 2
  | 2 => -p.Imb1 / 2
  | _ => -p.Reb1 / 2 + p.b2 / 2

/-- The numbers of the values of `l2`. -/
def l2Codes : List (List Nat × Nat) :=
  [([0, 0], 0), ([1, 1], 0), ([2, 2], 0), ([3, 3], 0), ([4, 4], 1), ([4, 5], 2), ([5, 4], 2),
   ([5, 5], 3)]

theorem l2_coded (p : Par) : l2 p = coded (l2Value p) l2Codes := rfl

theorem l2_sym2 (p : Par) : Sym2 6 (assign (l2 p) zeroTensor) :=
  sym2_coded 6 _ (l2_distinct p) _ _ (l2_coded p) (by decide +kernel)

/-- The numbered values. -/
noncomputable def l4Value (p : Par) : Nat → ℝ
  | 0 => 3 / 2 * p.lam
  | 1 => p.lam / 2
  | 2 => p.delta2 / 2
  | 3 => 3 / 2 * p.d2
  | _ => p.d2 / 2

/-- The numbers of the values of `l4`. -/
def l4Codes : List (List Nat × Nat) :=
  [([0, 0, 0, 0], 0), ([0, 0, 1, 1], 1), ([0, 0, 2, 2], 1), ([0, 0, 3, 3], 1), ([0, 0, 4, 4], 2),
   ([0, 0, 5, 5], 2), ([0, 1, 0, 1], 1), ([0, 1, 1, 0], 1), ([0, 2, 0, 2], 1), ([0, 2, 2, 0], 1),
   ([0, 3, 0, 3], 1), ([0, 3, 3, 0], 1), ([0, 4, 0, 4], 2), ([0, 4, 4, 0], 2), ([0, 5, 0, 5], 2),
   ([0, 5, 5, 0], 2), ([1, 0, 0, 1], 1), ([1, 0, 1, 0], 1), ([1, 1, 0, 0], 1), ([1, 1, 1, 1], 0),
   ([1, 1, 2, 2], 1), ([1, 1, 3, 3], 1), ([1, 1, 4, 4], 2), ([1, 1, 5, 5], 2), ([1, 2, 1, 2], 1),
   ([1, 2, 2, 1], 1), ([1, 3, 1, 3], 1), ([1, 3, 3, 1], 1), ([1, 4, 1, 4], 2), ([1, 4, 4, 1], 2),
   ([1, 5, 1, 5], 2), ([1, 5, 5, 1], 2), ([2, 0, 0, 2], 1), ([2, 0, 2, 0], 1), ([2, 1, 1, 2], 1),
   ([2, 1, 2, 1], 1), ([2, 2, 0, 0], 1), ([2, 2, 1, 1], 1), ([2, 2, 2, 2], 0), ([2, 2, 3, 3], 1),
   ([2, 2, 4, 4], 2), ([2, 2, 5, 5], 2), ([2, 3, 2, 3], 1), ([2, 3, 3, 2], 1), ([2, 4, 2, 4], 2),
   ([2, 4, 4, 2], 2), ([2, 5, 2, 5], 2), ([2, 5, 5, 2], 2), ([3, 0, 0, 3], 1), ([3, 0, 3, 0], 1),
   ([3, 1, 1, 3], 1), ([3, 1, 3, 1], 1), ([3, 2, 2, 3], 1), ([3, 2, 3, 2], 1), ([3, 3, 0, 0], 1),
   ([3, 3, 1, 1], 1), ([3, 3, 2, 2], 1), ([3, 3, 3, 3], 0), ([3, 3, 4, 4], 2), ([3, 3, 5, 5], 2),
   ([3, 4, 3, 4], 2), ([3, 4, 4, 3], 2), ([3, 5, 3, 5], 2), ([3, 5, 5, 3], 2), ([4, 0, 0, 4], 2),
   ([4, 0, 4, 0], 2), ([4, 1, 1, 4], 2), ([4, 1, 4, 1], 2), ([4, 2, 2, 4], 2), ([4, 2, 4, 2], 2),
   ([4, 3, 3, 4], 2), ([4, 3, 4, 3], 2), ([4, 4, 0, 0], 2), ([4, 4, 1, 1], 2), ([4, 4, 2, 2], 2),
   ([4, 4, 3, 3], 2), ([4, 4, 4, 4], 3), ([4, 4, 5, 5], 4), ([4, 5, 4, 5], 4), ([4, 5, 5, 4], 4),
   ([5, 0, 0, 5], 2), ([5, 0, 5, 0], 2), ([5, 1, 1, 5], 2), ([5, 1, 5, 1], 2), ([5, 2, 2, 5], 2),
   ([5, 2, 5, 2], 2), ([5, 3, 3, 5], 2), ([5, 3, 5, 3], 2), ([5, 4, 4, 5], 4), ([5, 4, 5, 4], 4),
   ([5, 5, 0, 0], 2), ([5, 5, 1, 1], 2), ([5, 5, 2, 2], 2), ([5, 5, 3, 3], 2), ([5, 5, 4, 4], 4),
   ([5, 5, 5, 5], 3)]

theorem l4_coded (p : Par) : l4 p = coded (l4Value p) l4Codes := rfl

theorem l4_sym4 (p : Par) : Sym4 6 (assign (l4 p) zeroTensor) :=
  sym4_coded 6 _ (l4_distinct p) _ _ (l4_coded p) (by decide +kernel)

end Verif.Lagrangian.CxSM
