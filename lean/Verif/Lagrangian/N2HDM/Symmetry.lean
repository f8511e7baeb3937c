import Verif.Lagrangian.Coded
import Verif.Lagrangian.N2HDM.Tables

/-!
# Symmetry of the tensors of the next-to two Higgs doublet model

The values of the tables are numbered so that the symmetry can be tested with the numbers alone.
-/

set_option linter.unusedSectionVars false
set_option linter.unusedVariables false

namespace Verif.Lagrangian.N2HDM

open Verif.Potential

variable {K : Type} [Field K]

/-- The numbered values. -/
def l2sValue (p : Par K) : Nat → K
  | 0 => p.u1
  | 1 => -p.RealMMix
  | 2 => p.u2
  | _ => p.Nus

/-- The numbers of the values of `l2s`. -/
def l2sCodes : List (List Nat × Nat) :=
  [([0, 0], 0), ([0, 1], 1), ([1, 0], 1), ([1, 1], 2), ([2, 2], 0), ([2, 3], 1), ([3, 2], 1),
   ([3, 3], 2), ([4, 4], 0), ([4, 5], 1), ([5, 4], 1), ([5, 5], 2), ([6, 6], 0), ([6, 7], 1),
   ([7, 6], 1), ([7, 7], 2), ([8, 8], 3)]

theorem l2s_coded (p : Par K) : l2s p = coded (l2sValue p) l2sCodes := rfl

theorem l2s_sym2 (p : Par K) : Sym2 9 (assign (l2s p) zeroTensor) :=
  sym2_coded 9 _ (l2s_distinct p) _ _ (l2s_coded p) (by decide +kernel)

end Verif.Lagrangian.N2HDM
