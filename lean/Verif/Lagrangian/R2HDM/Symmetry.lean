import Verif.Lagrangian.Coded
import Verif.Lagrangian.R2HDM.Tables

/-!
# Symmetry of the tensors of the real two Higgs doublet model

The values of the tables are numbered so that the symmetry can be tested with the numbers alone.
-/

set_option linter.unusedSectionVars false
set_option linter.unusedVariables false

namespace Verif.Lagrangian.R2HDM

open Verif.Potential

variable {K : Type} [Field K]

/-- The numbered values. -/
def l2Value (p : Par K) : Nat → K
  | 0 => p.u1
  | 1 => 0
  | 2 => -p.RealMMix
  | _ => p.u2

/-- The numbers of the values of `l2`. -/
def l2Codes : List (List Nat × Nat) :=
  [([0, 0], 0), ([0, 1], 1), ([0, 2], 2), ([0, 3], 1), ([0, 4], 1), ([0, 5], 1), ([0, 6], 1),
   ([0, 7], 1), ([1, 0], 1), ([1, 1], 0), ([1, 2], 1), ([1, 3], 2), ([1, 4], 1), ([1, 5], 1),
   ([1, 6], 1), ([1, 7], 1), ([2, 0], 2), ([2, 1], 1), ([2, 2], 3), ([2, 3], 1), ([2, 4], 1),
   ([2, 5], 1), ([2, 6], 1), ([2, 7], 1), ([3, 0], 1), ([3, 1], 2), ([3, 2], 1), ([3, 3], 3),
   ([3, 4], 1), ([3, 5], 1), ([3, 6], 1), ([3, 7], 1), ([4, 0], 1), ([4, 1], 1), ([4, 2], 1),
   ([4, 3], 1), ([4, 4], 0), ([4, 5], 1), ([4, 6], 2), ([4, 7], 1), ([5, 0], 1), ([5, 1], 1),
   ([5, 2], 1), ([5, 3], 1), ([5, 4], 1), ([5, 5], 0), ([5, 6], 1), ([5, 7], 2), ([6, 0], 1),
   ([6, 1], 1), ([6, 2], 1), ([6, 3], 1), ([6, 4], 2), ([6, 5], 1), ([6, 6], 3), ([6, 7], 1),
   ([7, 0], 1), ([7, 1], 1), ([7, 2], 1), ([7, 3], 1), ([7, 4], 1), ([7, 5], 2), ([7, 6], 1),
   ([7, 7], 3)]

theorem l2_coded (p : Par K) : l2 p = coded (l2Value p) l2Codes := rfl

theorem l2_sym2 (p : Par K) : Sym2 8 (assign (l2 p) zeroTensor) :=
  sym2_coded 8 _ (l2_distinct p) _ _ (l2_coded p) (by decide +kernel)

/-- The numbered values. -/
def ctL2Value (c : CT K) : Nat → K
  | 0 => c.Du1CT
  | 1 => 0
  | 2 => -c.DRu3CT
  | 3 => -0
  | _ => c.Du2CT

/-- The numbers of the values of `ctL2`. -/
def ctL2Codes : List (List Nat × Nat) :=
  [([0, 0], 0), ([0, 1], 1), ([0, 2], 2), ([0, 3], 1), ([0, 4], 1), ([0, 5], 1), ([0, 6], 1),
   ([0, 7], 1), ([1, 0], 1), ([1, 1], 0), ([1, 2], 3), ([1, 3], 2), ([1, 4], 1), ([1, 5], 1),
   ([1, 6], 1), ([1, 7], 1), ([2, 0], 2), ([2, 1], 3), ([2, 2], 4), ([2, 3], 1), ([2, 4], 1),
   ([2, 5], 1), ([2, 6], 1), ([2, 7], 1), ([3, 0], 1), ([3, 1], 2), ([3, 2], 1), ([3, 3], 4),
   ([3, 4], 1), ([3, 5], 1), ([3, 6], 1), ([3, 7], 1), ([4, 0], 1), ([4, 1], 1), ([4, 2], 1),
   ([4, 3], 1), ([4, 4], 0), ([4, 5], 1), ([4, 6], 2), ([4, 7], 1), ([5, 0], 1), ([5, 1], 1),
   ([5, 2], 1), ([5, 3], 1), ([5, 4], 1), ([5, 5], 0), ([5, 6], 3), ([5, 7], 2), ([6, 0], 1),
   ([6, 1], 1), ([6, 2], 1), ([6, 3], 1), ([6, 4], 2), ([6, 5], 3), ([6, 6], 4), ([6, 7], 1),
   ([7, 0], 1), ([7, 1], 1), ([7, 2], 1), ([7, 3], 1), ([7, 4], 1), ([7, 5], 2), ([7, 6], 1),
   ([7, 7], 4)]

theorem ctL2_coded (c : CT K) : ctL2 c = coded (ctL2Value c) ctL2Codes := rfl

theorem ctL2_sym2 (c : CT K) : Sym2 8 (assign (ctL2 c) zeroTensor) :=
  sym2_coded 8 _ (ctL2_distinct c) _ _ (ctL2_coded c) (by decide +kernel)

end Verif.Lagrangian.R2HDM
