import Verif.Lagrangian.Coded
import Verif.Lagrangian.SM.Props

/-!
# Symmetry of the tensors of the standard model

The values of the tables are numbered so that the symmetry can be tested with the numbers alone.
-/

set_option linter.unusedSectionVars false
set_option linter.unusedVariables false

namespace Verif.Lagrangian.SM

open Verif.Potential

variable {K : Type} [Field K]

/-- The numbered values. -/
def l2Value (p : Par K) : Nat → K
  | _ => p.muSq

/-- The numbers of the values of `l2`. -/
def l2Codes : List (List Nat × Nat) :=
  [([0, 0], 0), ([1, 1], 0), ([2, 2], 0), ([3, 3], 0)]

theorem l2_coded (p : Par K) : l2 p = coded (l2Value p) l2Codes := rfl

theorem l2_sym2 (p : Par K) : Sym2 4 (assign (l2 p) zeroTensor) :=
  sym2_coded 4 _ (l2_distinct p) _ _ (l2_coded p) (by decide +kernel)

/-- The numbered values. -/
def ctL2Value (c : CT K) : Nat → K
  | _ => c.dmuSq

/-- The numbers of the values of `ctL2`. -/
def ctL2Codes : List (List Nat × Nat) :=
  [([0, 0], 0), ([1, 1], 0), ([2, 2], 0), ([3, 3], 0)]

theorem ctL2_coded (c : CT K) : ctL2 c = coded (ctL2Value c) ctL2Codes := rfl

theorem ctL2_sym2 (c : CT K) : Sym2 4 (assign (ctL2 c) zeroTensor) :=
  sym2_coded 4 _ (ctL2_distinct c) _ _ (ctL2_coded c) (by decide +kernel)

end Verif.Lagrangian.SM
