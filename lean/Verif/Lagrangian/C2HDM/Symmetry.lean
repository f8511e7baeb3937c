import Verif.Lagrangian.Coded
import Verif.Lagrangian.C2HDM.Tables

/-!
# Symmetry of the tensors of the complex two Higgs doublet model

The values of the tables are numbered so that the symmetry can be tested with the numbers alone.
-/

set_option linter.unusedSectionVars false
set_option linter.unusedVariables false

namespace Verif.Lagrangian.C2HDM

open Verif.Potential

variable {K : Type} [Field K]

/-- The numbered values. -/
def l2Value (p : Par K) : Nat → K
  | 0 => p.u1
  | 1 => 0
  | 2 => -p.RealMMix
  | 3 => p.Iu3
  | 4 => -p.Iu3
  | _ => p.u2

/-- The numbers of the values of `l2`. -/
def l2Codes : List (List Nat × Nat) :=
  [([0, 0], 0), ([0, 1], 1), ([0, 2], 2), ([0, 3], 3), ([0, 4], 1), ([0, 5], 1), ([0, 6], 1),
   ([0, 7], 1), ([1, 0], 1), ([1, 1], 0), ([1, 2], 4), ([1, 3], 2), ([1, 4], 1), ([1, 5], 1),
   ([1, 6], 1), ([1, 7], 1), ([2, 0], 2), ([2, 1], 4), ([2, 2], 5), ([2, 3], 1), ([2, 4], 1),
   ([2, 5], 1), ([2, 6], 1), ([2, 7], 1), ([3, 0], 3), ([3, 1], 2), ([3, 2], 1), ([3, 3], 5),
   ([3, 4], 1), ([3, 5], 1), ([3, 6], 1), ([3, 7], 1), ([4, 0], 1), ([4, 1], 1), ([4, 2], 1),
   ([4, 3], 1), ([4, 4], 0), ([4, 5], 1), ([4, 6], 2), ([4, 7], 3), ([5, 0], 1), ([5, 1], 1),
   ([5, 2], 1), ([5, 3], 1), ([5, 4], 1), ([5, 5], 0), ([5, 6], 4), ([5, 7], 2), ([6, 0], 1),
   ([6, 1], 1), ([6, 2], 1), ([6, 3], 1), ([6, 4], 2), ([6, 5], 4), ([6, 6], 5), ([6, 7], 1),
   ([7, 0], 1), ([7, 1], 1), ([7, 2], 1), ([7, 3], 1), ([7, 4], 3), ([7, 5], 2), ([7, 6], 1),
   ([7, 7], 5)]

theorem l2_coded (p : Par K) : l2 p = coded (l2Value p) l2Codes := rfl

theorem l2_sym2 (p : Par K) : Sym2 8 (assign (l2 p) zeroTensor) :=
  sym2_coded 8 _ (l2_distinct p) _ _ (l2_coded p) (by decide +kernel)

/-- The numbered values. -/
def ctL2Value (c : CT K) : Nat → K
  | 0 => c.Du1CT
  | 1 => -c.DRu3CT
  | 2 => c.DIu3CT
  | 3 => -c.DIu3CT
  | _ => c.Du2CT

/-- The numbers of the values of `ctL2`. -/
def ctL2Codes : List (List Nat × Nat) :=
  [([0, 0], 0), ([0, 2], 1), ([0, 3], 2), ([1, 1], 0), ([1, 2], 3), ([1, 3], 1), ([2, 0], 1),
   ([2, 1], 3), ([2, 2], 4), ([3, 0], 2), ([3, 1], 1), ([3, 3], 4), ([4, 4], 0), ([4, 6], 1),
   ([4, 7], 2), ([5, 5], 0), ([5, 6], 3), ([5, 7], 1), ([6, 4], 1), ([6, 5], 3), ([6, 6], 4),
   ([7, 4], 2), ([7, 5], 1), ([7, 7], 4)]

theorem ctL2_coded (c : CT K) : ctL2 c = coded (ctL2Value c) ctL2Codes := rfl

theorem ctL2_sym2 (c : CT K) : Sym2 8 (assign (ctL2 c) zeroTensor) :=
  sym2_coded 8 _ (ctL2_distinct c) _ _ (ctL2_coded c) (by decide +kernel)

/-- The numbered values. -/
def ctL4Value (c : CT K) : Nat → K
  | 0 => 3 * c.DL1CT
  | 1 => -3 * c.DIL6CT
  | 2 => c.DL1CT
  | 3 => c.DIL6CT
  | 4 => c.DL3CT + c.DL4CT + c.DRL5CT
  | 5 => -c.DIL5CT
  | 6 => c.DL3CT + c.DL4CT - c.DRL5CT
  | 7 => -c.DIL6CT
  | 8 => c.DL3CT
  | 9 => c.DIL5CT
  | 10 => c.DRL5CT
  | 11 => c.DL4CT / 2 + c.DRL5CT / 2
  | 12 => -c.DIL5CT / 2
  | 13 => c.DIL5CT / 2
  | 14 => c.DL4CT / 2 - c.DRL5CT / 2
  | 15 => -c.DL4CT / 2 + c.DRL5CT / 2
  | 16 => 3 * c.DIL6CT
  | 17 => 3 * c.DL2CT
  | _ => c.DL2CT

/-- The numbers of the values of `ctL4_0`. -/
def ctL4Codes_0 : List (List Nat × Nat) :=
  [([0, 0, 0, 0], 0), ([0, 0, 0, 3], 1), ([0, 0, 1, 1], 2), ([0, 0, 1, 2], 3), ([0, 0, 2, 1], 3),
   ([0, 0, 2, 2], 4), ([0, 0, 2, 3], 5), ([0, 0, 3, 0], 1), ([0, 0, 3, 2], 5), ([0, 0, 3, 3], 6),
   ([0, 0, 4, 4], 2), ([0, 0, 4, 7], 7), ([0, 0, 5, 5], 2), ([0, 0, 5, 6], 3), ([0, 0, 6, 5], 3),
   ([0, 0, 6, 6], 8), ([0, 0, 7, 4], 7), ([0, 0, 7, 7], 8), ([0, 1, 0, 1], 2), ([0, 1, 0, 2], 3),
   ([0, 1, 1, 0], 2), ([0, 1, 1, 3], 7), ([0, 1, 2, 0], 3), ([0, 1, 2, 2], 9), ([0, 1, 2, 3], 10),
   ([0, 1, 3, 1], 7), ([0, 1, 3, 2], 10), ([0, 1, 3, 3], 5), ([0, 2, 0, 1], 3), ([0, 2, 0, 2], 4),
   ([0, 2, 0, 3], 5), ([0, 2, 1, 0], 3), ([0, 2, 1, 2], 9), ([0, 2, 1, 3], 10), ([0, 2, 2, 0], 4),
   ([0, 2, 2, 1], 9), ([0, 2, 3, 0], 5), ([0, 2, 3, 1], 10), ([0, 2, 4, 6], 11),
   ([0, 2, 4, 7], 12), ([0, 2, 5, 6], 13), ([0, 2, 5, 7], 11), ([0, 2, 6, 4], 11),
   ([0, 2, 6, 5], 13), ([0, 2, 7, 4], 12), ([0, 2, 7, 5], 11), ([0, 3, 0, 0], 1),
   ([0, 3, 0, 2], 5), ([0, 3, 0, 3], 6), ([0, 3, 1, 1], 7), ([0, 3, 1, 2], 10), ([0, 3, 1, 3], 5),
   ([0, 3, 2, 0], 5), ([0, 3, 2, 1], 10), ([0, 3, 3, 0], 6), ([0, 3, 3, 1], 5), ([0, 3, 4, 4], 7),
   ([0, 3, 4, 6], 12), ([0, 3, 4, 7], 14), ([0, 3, 5, 5], 7), ([0, 3, 5, 6], 15),
   ([0, 3, 5, 7], 12), ([0, 3, 6, 4], 12), ([0, 3, 6, 5], 15), ([0, 3, 7, 4], 14),
   ([0, 3, 7, 5], 12), ([0, 4, 0, 4], 2), ([0, 4, 0, 7], 7), ([0, 4, 2, 6], 11),
   ([0, 4, 2, 7], 12), ([0, 4, 3, 4], 7), ([0, 4, 3, 6], 12), ([0, 4, 3, 7], 14),
   ([0, 4, 4, 0], 2), ([0, 4, 4, 3], 7), ([0, 4, 6, 2], 11), ([0, 4, 6, 3], 12),
   ([0, 4, 7, 0], 7), ([0, 4, 7, 2], 12), ([0, 4, 7, 3], 14), ([0, 5, 0, 5], 2),
   ([0, 5, 0, 6], 3), ([0, 5, 2, 6], 13), ([0, 5, 2, 7], 11), ([0, 5, 3, 5], 7),
   ([0, 5, 3, 6], 15), ([0, 5, 3, 7], 12), ([0, 5, 5, 0], 2), ([0, 5, 5, 3], 7),
   ([0, 5, 6, 0], 3), ([0, 5, 6, 2], 13), ([0, 5, 6, 3], 15), ([0, 5, 7, 2], 11),
   ([0, 5, 7, 3], 12), ([0, 6, 0, 5], 3), ([0, 6, 0, 6], 8), ([0, 6, 2, 4], 11),
   ([0, 6, 2, 5], 13), ([0, 6, 3, 4], 12), ([0, 6, 3, 5], 15), ([0, 6, 4, 2], 11),
   ([0, 6, 4, 3], 12), ([0, 6, 5, 0], 3), ([0, 6, 5, 2], 13), ([0, 6, 5, 3], 15),
   ([0, 6, 6, 0], 8), ([0, 7, 0, 4], 7), ([0, 7, 0, 7], 8), ([0, 7, 2, 4], 12),
   ([0, 7, 2, 5], 11), ([0, 7, 3, 4], 14), ([0, 7, 3, 5], 12), ([0, 7, 4, 0], 7),
   ([0, 7, 4, 2], 12), ([0, 7, 4, 3], 14), ([0, 7, 5, 2], 11), ([0, 7, 5, 3], 12),
   ([0, 7, 7, 0], 8)]

/-- The numbers of the values of `ctL4_1`. -/
def ctL4Codes_1 : List (List Nat × Nat) :=
  [([1, 0, 0, 1], 2), ([1, 0, 0, 2], 3), ([1, 0, 1, 0], 2), ([1, 0, 1, 3], 7), ([1, 0, 2, 0], 3),
   ([1, 0, 2, 2], 9), ([1, 0, 2, 3], 10), ([1, 0, 3, 1], 7), ([1, 0, 3, 2], 10),
   ([1, 0, 3, 3], 5), ([1, 1, 0, 0], 2), ([1, 1, 0, 3], 7), ([1, 1, 1, 1], 0), ([1, 1, 1, 2], 16),
   ([1, 1, 2, 1], 16), ([1, 1, 2, 2], 6), ([1, 1, 2, 3], 9), ([1, 1, 3, 0], 7), ([1, 1, 3, 2], 9),
   ([1, 1, 3, 3], 4), ([1, 1, 4, 4], 2), ([1, 1, 4, 7], 7), ([1, 1, 5, 5], 2), ([1, 1, 5, 6], 3),
   ([1, 1, 6, 5], 3), ([1, 1, 6, 6], 8), ([1, 1, 7, 4], 7), ([1, 1, 7, 7], 8), ([1, 2, 0, 0], 3),
   ([1, 2, 0, 2], 9), ([1, 2, 0, 3], 10), ([1, 2, 1, 1], 16), ([1, 2, 1, 2], 6),
   ([1, 2, 1, 3], 9), ([1, 2, 2, 0], 9), ([1, 2, 2, 1], 6), ([1, 2, 3, 0], 10), ([1, 2, 3, 1], 9),
   ([1, 2, 4, 4], 3), ([1, 2, 4, 6], 13), ([1, 2, 4, 7], 15), ([1, 2, 5, 5], 3),
   ([1, 2, 5, 6], 14), ([1, 2, 5, 7], 13), ([1, 2, 6, 4], 13), ([1, 2, 6, 5], 14),
   ([1, 2, 7, 4], 15), ([1, 2, 7, 5], 13), ([1, 3, 0, 1], 7), ([1, 3, 0, 2], 10),
   ([1, 3, 0, 3], 5), ([1, 3, 1, 0], 7), ([1, 3, 1, 2], 9), ([1, 3, 1, 3], 4), ([1, 3, 2, 0], 10),
   ([1, 3, 2, 1], 9), ([1, 3, 3, 0], 5), ([1, 3, 3, 1], 4), ([1, 3, 4, 6], 11),
   ([1, 3, 4, 7], 12), ([1, 3, 5, 6], 13), ([1, 3, 5, 7], 11), ([1, 3, 6, 4], 11),
   ([1, 3, 6, 5], 13), ([1, 3, 7, 4], 12), ([1, 3, 7, 5], 11), ([1, 4, 1, 4], 2),
   ([1, 4, 1, 7], 7), ([1, 4, 2, 4], 3), ([1, 4, 2, 6], 13), ([1, 4, 2, 7], 15),
   ([1, 4, 3, 6], 11), ([1, 4, 3, 7], 12), ([1, 4, 4, 1], 2), ([1, 4, 4, 2], 3),
   ([1, 4, 6, 2], 13), ([1, 4, 6, 3], 11), ([1, 4, 7, 1], 7), ([1, 4, 7, 2], 15),
   ([1, 4, 7, 3], 12), ([1, 5, 1, 5], 2), ([1, 5, 1, 6], 3), ([1, 5, 2, 5], 3),
   ([1, 5, 2, 6], 14), ([1, 5, 2, 7], 13), ([1, 5, 3, 6], 13), ([1, 5, 3, 7], 11),
   ([1, 5, 5, 1], 2), ([1, 5, 5, 2], 3), ([1, 5, 6, 1], 3), ([1, 5, 6, 2], 14),
   ([1, 5, 6, 3], 13), ([1, 5, 7, 2], 13), ([1, 5, 7, 3], 11), ([1, 6, 1, 5], 3),
   ([1, 6, 1, 6], 8), ([1, 6, 2, 4], 13), ([1, 6, 2, 5], 14), ([1, 6, 3, 4], 11),
   ([1, 6, 3, 5], 13), ([1, 6, 4, 2], 13), ([1, 6, 4, 3], 11), ([1, 6, 5, 1], 3),
   ([1, 6, 5, 2], 14), ([1, 6, 5, 3], 13), ([1, 6, 6, 1], 8), ([1, 7, 1, 4], 7),
   ([1, 7, 1, 7], 8), ([1, 7, 2, 4], 15), ([1, 7, 2, 5], 13), ([1, 7, 3, 4], 12),
   ([1, 7, 3, 5], 11), ([1, 7, 4, 1], 7), ([1, 7, 4, 2], 15), ([1, 7, 4, 3], 12),
   ([1, 7, 5, 2], 13), ([1, 7, 5, 3], 11), ([1, 7, 7, 1], 8)]

/-- The numbers of the values of `ctL4_2`. -/
def ctL4Codes_2 : List (List Nat × Nat) :=
  [([2, 0, 0, 1], 3), ([2, 0, 0, 2], 4), ([2, 0, 0, 3], 5), ([2, 0, 1, 0], 3), ([2, 0, 1, 2], 9),
   ([2, 0, 1, 3], 10), ([2, 0, 2, 0], 4), ([2, 0, 2, 1], 9), ([2, 0, 3, 0], 5),
   ([2, 0, 3, 1], 10), ([2, 0, 4, 6], 11), ([2, 0, 4, 7], 12), ([2, 0, 5, 6], 13),
   ([2, 0, 5, 7], 11), ([2, 0, 6, 4], 11), ([2, 0, 6, 5], 13), ([2, 0, 7, 4], 12),
   ([2, 0, 7, 5], 11), ([2, 1, 0, 0], 3), ([2, 1, 0, 2], 9), ([2, 1, 0, 3], 10),
   ([2, 1, 1, 1], 16), ([2, 1, 1, 2], 6), ([2, 1, 1, 3], 9), ([2, 1, 2, 0], 9), ([2, 1, 2, 1], 6),
   ([2, 1, 3, 0], 10), ([2, 1, 3, 1], 9), ([2, 1, 4, 4], 3), ([2, 1, 4, 6], 13),
   ([2, 1, 4, 7], 15), ([2, 1, 5, 5], 3), ([2, 1, 5, 6], 14), ([2, 1, 5, 7], 13),
   ([2, 1, 6, 4], 13), ([2, 1, 6, 5], 14), ([2, 1, 7, 4], 15), ([2, 1, 7, 5], 13),
   ([2, 2, 0, 0], 4), ([2, 2, 0, 1], 9), ([2, 2, 1, 0], 9), ([2, 2, 1, 1], 6), ([2, 2, 2, 2], 17),
   ([2, 2, 3, 3], 18), ([2, 2, 4, 4], 8), ([2, 2, 5, 5], 8), ([2, 2, 6, 6], 18),
   ([2, 2, 7, 7], 18), ([2, 3, 0, 0], 5), ([2, 3, 0, 1], 10), ([2, 3, 1, 0], 10),
   ([2, 3, 1, 1], 9), ([2, 3, 2, 3], 18), ([2, 3, 3, 2], 18), ([2, 4, 0, 6], 11),
   ([2, 4, 0, 7], 12), ([2, 4, 1, 4], 3), ([2, 4, 1, 6], 13), ([2, 4, 1, 7], 15),
   ([2, 4, 2, 4], 8), ([2, 4, 4, 1], 3), ([2, 4, 4, 2], 8), ([2, 4, 6, 0], 11),
   ([2, 4, 6, 1], 13), ([2, 4, 7, 0], 12), ([2, 4, 7, 1], 15), ([2, 5, 0, 6], 13),
   ([2, 5, 0, 7], 11), ([2, 5, 1, 5], 3), ([2, 5, 1, 6], 14), ([2, 5, 1, 7], 13),
   ([2, 5, 2, 5], 8), ([2, 5, 5, 1], 3), ([2, 5, 5, 2], 8), ([2, 5, 6, 0], 13),
   ([2, 5, 6, 1], 14), ([2, 5, 7, 0], 11), ([2, 5, 7, 1], 13), ([2, 6, 0, 4], 11),
   ([2, 6, 0, 5], 13), ([2, 6, 1, 4], 13), ([2, 6, 1, 5], 14), ([2, 6, 2, 6], 18),
   ([2, 6, 4, 0], 11), ([2, 6, 4, 1], 13), ([2, 6, 5, 0], 13), ([2, 6, 5, 1], 14),
   ([2, 6, 6, 2], 18), ([2, 7, 0, 4], 12), ([2, 7, 0, 5], 11), ([2, 7, 1, 4], 15),
   ([2, 7, 1, 5], 13), ([2, 7, 2, 7], 18), ([2, 7, 4, 0], 12), ([2, 7, 4, 1], 15),
   ([2, 7, 5, 0], 11), ([2, 7, 5, 1], 13), ([2, 7, 7, 2], 18)]

/-- The numbers of the values of `ctL4_3`. -/
def ctL4Codes_3 : List (List Nat × Nat) :=
  [([3, 0, 0, 0], 1), ([3, 0, 0, 2], 5), ([3, 0, 0, 3], 6), ([3, 0, 1, 1], 7), ([3, 0, 1, 2], 10),
   ([3, 0, 1, 3], 5), ([3, 0, 2, 0], 5), ([3, 0, 2, 1], 10), ([3, 0, 3, 0], 6), ([3, 0, 3, 1], 5),
   ([3, 0, 4, 4], 7), ([3, 0, 4, 6], 12), ([3, 0, 4, 7], 14), ([3, 0, 5, 5], 7),
   ([3, 0, 5, 6], 15), ([3, 0, 5, 7], 12), ([3, 0, 6, 4], 12), ([3, 0, 6, 5], 15),
   ([3, 0, 7, 4], 14), ([3, 0, 7, 5], 12), ([3, 1, 0, 1], 7), ([3, 1, 0, 2], 10),
   ([3, 1, 0, 3], 5), ([3, 1, 1, 0], 7), ([3, 1, 1, 2], 9), ([3, 1, 1, 3], 4), ([3, 1, 2, 0], 10),
   ([3, 1, 2, 1], 9), ([3, 1, 3, 0], 5), ([3, 1, 3, 1], 4), ([3, 1, 4, 6], 11),
   ([3, 1, 4, 7], 12), ([3, 1, 5, 6], 13), ([3, 1, 5, 7], 11), ([3, 1, 6, 4], 11),
   ([3, 1, 6, 5], 13), ([3, 1, 7, 4], 12), ([3, 1, 7, 5], 11), ([3, 2, 0, 0], 5),
   ([3, 2, 0, 1], 10), ([3, 2, 1, 0], 10), ([3, 2, 1, 1], 9), ([3, 2, 2, 3], 18),
   ([3, 2, 3, 2], 18), ([3, 3, 0, 0], 6), ([3, 3, 0, 1], 5), ([3, 3, 1, 0], 5), ([3, 3, 1, 1], 4),
   ([3, 3, 2, 2], 18), ([3, 3, 3, 3], 17), ([3, 3, 4, 4], 8), ([3, 3, 5, 5], 8),
   ([3, 3, 6, 6], 18), ([3, 3, 7, 7], 18), ([3, 4, 0, 4], 7), ([3, 4, 0, 6], 12),
   ([3, 4, 0, 7], 14), ([3, 4, 1, 6], 11), ([3, 4, 1, 7], 12), ([3, 4, 3, 4], 8),
   ([3, 4, 4, 0], 7), ([3, 4, 4, 3], 8), ([3, 4, 6, 0], 12), ([3, 4, 6, 1], 11),
   ([3, 4, 7, 0], 14), ([3, 4, 7, 1], 12), ([3, 5, 0, 5], 7), ([3, 5, 0, 6], 15),
   ([3, 5, 0, 7], 12), ([3, 5, 1, 6], 13), ([3, 5, 1, 7], 11), ([3, 5, 3, 5], 8),
   ([3, 5, 5, 0], 7), ([3, 5, 5, 3], 8), ([3, 5, 6, 0], 15), ([3, 5, 6, 1], 13),
   ([3, 5, 7, 0], 12), ([3, 5, 7, 1], 11), ([3, 6, 0, 4], 12), ([3, 6, 0, 5], 15),
   ([3, 6, 1, 4], 11), ([3, 6, 1, 5], 13), ([3, 6, 3, 6], 18), ([3, 6, 4, 0], 12),
   ([3, 6, 4, 1], 11), ([3, 6, 5, 0], 15), ([3, 6, 5, 1], 13), ([3, 6, 6, 3], 18),
   ([3, 7, 0, 4], 14), ([3, 7, 0, 5], 12), ([3, 7, 1, 4], 12), ([3, 7, 1, 5], 11),
   ([3, 7, 3, 7], 18), ([3, 7, 4, 0], 14), ([3, 7, 4, 1], 12), ([3, 7, 5, 0], 12),
   ([3, 7, 5, 1], 11), ([3, 7, 7, 3], 18)]

/-- The numbers of the values of `ctL4_4`. -/
def ctL4Codes_4 : List (List Nat × Nat) :=
  [([4, 0, 0, 4], 2), ([4, 0, 0, 7], 7), ([4, 0, 2, 6], 11), ([4, 0, 2, 7], 12),
   ([4, 0, 3, 4], 7), ([4, 0, 3, 6], 12), ([4, 0, 3, 7], 14), ([4, 0, 4, 0], 2),
   ([4, 0, 4, 3], 7), ([4, 0, 6, 2], 11), ([4, 0, 6, 3], 12), ([4, 0, 7, 0], 7),
   ([4, 0, 7, 2], 12), ([4, 0, 7, 3], 14), ([4, 1, 1, 4], 2), ([4, 1, 1, 7], 7),
   ([4, 1, 2, 4], 3), ([4, 1, 2, 6], 13), ([4, 1, 2, 7], 15), ([4, 1, 3, 6], 11),
   ([4, 1, 3, 7], 12), ([4, 1, 4, 1], 2), ([4, 1, 4, 2], 3), ([4, 1, 6, 2], 13),
   ([4, 1, 6, 3], 11), ([4, 1, 7, 1], 7), ([4, 1, 7, 2], 15), ([4, 1, 7, 3], 12),
   ([4, 2, 0, 6], 11), ([4, 2, 0, 7], 12), ([4, 2, 1, 4], 3), ([4, 2, 1, 6], 13),
   ([4, 2, 1, 7], 15), ([4, 2, 2, 4], 8), ([4, 2, 4, 1], 3), ([4, 2, 4, 2], 8),
   ([4, 2, 6, 0], 11), ([4, 2, 6, 1], 13), ([4, 2, 7, 0], 12), ([4, 2, 7, 1], 15),
   ([4, 3, 0, 4], 7), ([4, 3, 0, 6], 12), ([4, 3, 0, 7], 14), ([4, 3, 1, 6], 11),
   ([4, 3, 1, 7], 12), ([4, 3, 3, 4], 8), ([4, 3, 4, 0], 7), ([4, 3, 4, 3], 8),
   ([4, 3, 6, 0], 12), ([4, 3, 6, 1], 11), ([4, 3, 7, 0], 14), ([4, 3, 7, 1], 12),
   ([4, 4, 0, 0], 2), ([4, 4, 0, 3], 7), ([4, 4, 1, 1], 2), ([4, 4, 1, 2], 3), ([4, 4, 2, 1], 3),
   ([4, 4, 2, 2], 8), ([4, 4, 3, 0], 7), ([4, 4, 3, 3], 8), ([4, 4, 4, 4], 0), ([4, 4, 4, 7], 1),
   ([4, 4, 5, 5], 2), ([4, 4, 5, 6], 3), ([4, 4, 6, 5], 3), ([4, 4, 6, 6], 4), ([4, 4, 6, 7], 5),
   ([4, 4, 7, 4], 1), ([4, 4, 7, 6], 5), ([4, 4, 7, 7], 6), ([4, 5, 4, 5], 2), ([4, 5, 4, 6], 3),
   ([4, 5, 5, 4], 2), ([4, 5, 5, 7], 7), ([4, 5, 6, 4], 3), ([4, 5, 6, 6], 9), ([4, 5, 6, 7], 10),
   ([4, 5, 7, 5], 7), ([4, 5, 7, 6], 10), ([4, 5, 7, 7], 5), ([4, 6, 0, 2], 11),
   ([4, 6, 0, 3], 12), ([4, 6, 1, 2], 13), ([4, 6, 1, 3], 11), ([4, 6, 2, 0], 11),
   ([4, 6, 2, 1], 13), ([4, 6, 3, 0], 12), ([4, 6, 3, 1], 11), ([4, 6, 4, 5], 3),
   ([4, 6, 4, 6], 4), ([4, 6, 4, 7], 5), ([4, 6, 5, 4], 3), ([4, 6, 5, 6], 9), ([4, 6, 5, 7], 10),
   ([4, 6, 6, 4], 4), ([4, 6, 6, 5], 9), ([4, 6, 7, 4], 5), ([4, 6, 7, 5], 10), ([4, 7, 0, 0], 7),
   ([4, 7, 0, 2], 12), ([4, 7, 0, 3], 14), ([4, 7, 1, 1], 7), ([4, 7, 1, 2], 15),
   ([4, 7, 1, 3], 12), ([4, 7, 2, 0], 12), ([4, 7, 2, 1], 15), ([4, 7, 3, 0], 14),
   ([4, 7, 3, 1], 12), ([4, 7, 4, 4], 1), ([4, 7, 4, 6], 5), ([4, 7, 4, 7], 6), ([4, 7, 5, 5], 7),
   ([4, 7, 5, 6], 10), ([4, 7, 5, 7], 5), ([4, 7, 6, 4], 5), ([4, 7, 6, 5], 10),
   ([4, 7, 7, 4], 6), ([4, 7, 7, 5], 5)]

/-- The numbers of the values of `ctL4_5`. -/
def ctL4Codes_5 : List (List Nat × Nat) :=
  [([5, 0, 0, 5], 2), ([5, 0, 0, 6], 3), ([5, 0, 2, 6], 13), ([5, 0, 2, 7], 11),
   ([5, 0, 3, 5], 7), ([5, 0, 3, 6], 15), ([5, 0, 3, 7], 12), ([5, 0, 5, 0], 2),
   ([5, 0, 5, 3], 7), ([5, 0, 6, 0], 3), ([5, 0, 6, 2], 13), ([5, 0, 6, 3], 15),
   ([5, 0, 7, 2], 11), ([5, 0, 7, 3], 12), ([5, 1, 1, 5], 2), ([5, 1, 1, 6], 3),
   ([5, 1, 2, 5], 3), ([5, 1, 2, 6], 14), ([5, 1, 2, 7], 13), ([5, 1, 3, 6], 13),
   ([5, 1, 3, 7], 11), ([5, 1, 5, 1], 2), ([5, 1, 5, 2], 3), ([5, 1, 6, 1], 3),
   ([5, 1, 6, 2], 14), ([5, 1, 6, 3], 13), ([5, 1, 7, 2], 13), ([5, 1, 7, 3], 11),
   ([5, 2, 0, 6], 13), ([5, 2, 0, 7], 11), ([5, 2, 1, 5], 3), ([5, 2, 1, 6], 14),
   ([5, 2, 1, 7], 13), ([5, 2, 2, 5], 8), ([5, 2, 5, 1], 3), ([5, 2, 5, 2], 8),
   ([5, 2, 6, 0], 13), ([5, 2, 6, 1], 14), ([5, 2, 7, 0], 11), ([5, 2, 7, 1], 13),
   ([5, 3, 0, 5], 7), ([5, 3, 0, 6], 15), ([5, 3, 0, 7], 12), ([5, 3, 1, 6], 13),
   ([5, 3, 1, 7], 11), ([5, 3, 3, 5], 8), ([5, 3, 5, 0], 7), ([5, 3, 5, 3], 8),
   ([5, 3, 6, 0], 15), ([5, 3, 6, 1], 13), ([5, 3, 7, 0], 12), ([5, 3, 7, 1], 11),
   ([5, 4, 4, 5], 2), ([5, 4, 4, 6], 3), ([5, 4, 5, 4], 2), ([5, 4, 5, 7], 7), ([5, 4, 6, 4], 3),
   ([5, 4, 6, 6], 9), ([5, 4, 6, 7], 10), ([5, 4, 7, 5], 7), ([5, 4, 7, 6], 10),
   ([5, 4, 7, 7], 5), ([5, 5, 0, 0], 2), ([5, 5, 0, 3], 7), ([5, 5, 1, 1], 2), ([5, 5, 1, 2], 3),
   ([5, 5, 2, 1], 3), ([5, 5, 2, 2], 8), ([5, 5, 3, 0], 7), ([5, 5, 3, 3], 8), ([5, 5, 4, 4], 2),
   ([5, 5, 4, 7], 7), ([5, 5, 5, 5], 0), ([5, 5, 5, 6], 16), ([5, 5, 6, 5], 16),
   ([5, 5, 6, 6], 6), ([5, 5, 6, 7], 9), ([5, 5, 7, 4], 7), ([5, 5, 7, 6], 9), ([5, 5, 7, 7], 4),
   ([5, 6, 0, 0], 3), ([5, 6, 0, 2], 13), ([5, 6, 0, 3], 15), ([5, 6, 1, 1], 3),
   ([5, 6, 1, 2], 14), ([5, 6, 1, 3], 13), ([5, 6, 2, 0], 13), ([5, 6, 2, 1], 14),
   ([5, 6, 3, 0], 15), ([5, 6, 3, 1], 13), ([5, 6, 4, 4], 3), ([5, 6, 4, 6], 9),
   ([5, 6, 4, 7], 10), ([5, 6, 5, 5], 16), ([5, 6, 5, 6], 6), ([5, 6, 5, 7], 9),
   ([5, 6, 6, 4], 9), ([5, 6, 6, 5], 6), ([5, 6, 7, 4], 10), ([5, 6, 7, 5], 9),
   ([5, 7, 0, 2], 11), ([5, 7, 0, 3], 12), ([5, 7, 1, 2], 13), ([5, 7, 1, 3], 11),
   ([5, 7, 2, 0], 11), ([5, 7, 2, 1], 13), ([5, 7, 3, 0], 12), ([5, 7, 3, 1], 11),
   ([5, 7, 4, 5], 7), ([5, 7, 4, 6], 10), ([5, 7, 4, 7], 5), ([5, 7, 5, 4], 7), ([5, 7, 5, 6], 9),
   ([5, 7, 5, 7], 4), ([5, 7, 6, 4], 10), ([5, 7, 6, 5], 9), ([5, 7, 7, 4], 5), ([5, 7, 7, 5], 4)]

/-- The numbers of the values of `ctL4_6`. -/
def ctL4Codes_6 : List (List Nat × Nat) :=
  [([6, 0, 0, 5], 3), ([6, 0, 0, 6], 8), ([6, 0, 2, 4], 11), ([6, 0, 2, 5], 13),
   ([6, 0, 3, 4], 12), ([6, 0, 3, 5], 15), ([6, 0, 4, 2], 11), ([6, 0, 4, 3], 12),
   ([6, 0, 5, 0], 3), ([6, 0, 5, 2], 13), ([6, 0, 5, 3], 15), ([6, 0, 6, 0], 8),
   ([6, 1, 1, 5], 3), ([6, 1, 1, 6], 8), ([6, 1, 2, 4], 13), ([6, 1, 2, 5], 14),
   ([6, 1, 3, 4], 11), ([6, 1, 3, 5], 13), ([6, 1, 4, 2], 13), ([6, 1, 4, 3], 11),
   ([6, 1, 5, 1], 3), ([6, 1, 5, 2], 14), ([6, 1, 5, 3], 13), ([6, 1, 6, 1], 8),
   ([6, 2, 0, 4], 11), ([6, 2, 0, 5], 13), ([6, 2, 1, 4], 13), ([6, 2, 1, 5], 14),
   ([6, 2, 2, 6], 18), ([6, 2, 4, 0], 11), ([6, 2, 4, 1], 13), ([6, 2, 5, 0], 13),
   ([6, 2, 5, 1], 14), ([6, 2, 6, 2], 18), ([6, 3, 0, 4], 12), ([6, 3, 0, 5], 15),
   ([6, 3, 1, 4], 11), ([6, 3, 1, 5], 13), ([6, 3, 3, 6], 18), ([6, 3, 4, 0], 12),
   ([6, 3, 4, 1], 11), ([6, 3, 5, 0], 15), ([6, 3, 5, 1], 13), ([6, 3, 6, 3], 18),
   ([6, 4, 0, 2], 11), ([6, 4, 0, 3], 12), ([6, 4, 1, 2], 13), ([6, 4, 1, 3], 11),
   ([6, 4, 2, 0], 11), ([6, 4, 2, 1], 13), ([6, 4, 3, 0], 12), ([6, 4, 3, 1], 11),
   ([6, 4, 4, 5], 3), ([6, 4, 4, 6], 4), ([6, 4, 4, 7], 5), ([6, 4, 5, 4], 3), ([6, 4, 5, 6], 9),
   ([6, 4, 5, 7], 10), ([6, 4, 6, 4], 4), ([6, 4, 6, 5], 9), ([6, 4, 7, 4], 5),
   ([6, 4, 7, 5], 10), ([6, 5, 0, 0], 3), ([6, 5, 0, 2], 13), ([6, 5, 0, 3], 15),
   ([6, 5, 1, 1], 3), ([6, 5, 1, 2], 14), ([6, 5, 1, 3], 13), ([6, 5, 2, 0], 13),
   ([6, 5, 2, 1], 14), ([6, 5, 3, 0], 15), ([6, 5, 3, 1], 13), ([6, 5, 4, 4], 3),
   ([6, 5, 4, 6], 9), ([6, 5, 4, 7], 10), ([6, 5, 5, 5], 16), ([6, 5, 5, 6], 6),
   ([6, 5, 5, 7], 9), ([6, 5, 6, 4], 9), ([6, 5, 6, 5], 6), ([6, 5, 7, 4], 10), ([6, 5, 7, 5], 9),
   ([6, 6, 0, 0], 8), ([6, 6, 1, 1], 8), ([6, 6, 2, 2], 18), ([6, 6, 3, 3], 18),
   ([6, 6, 4, 4], 4), ([6, 6, 4, 5], 9), ([6, 6, 5, 4], 9), ([6, 6, 5, 5], 6), ([6, 6, 6, 6], 17),
   ([6, 6, 7, 7], 18), ([6, 7, 4, 4], 5), ([6, 7, 4, 5], 10), ([6, 7, 5, 4], 10),
   ([6, 7, 5, 5], 9), ([6, 7, 6, 7], 18), ([6, 7, 7, 6], 18)]

/-- The numbers of the values of `ctL4_7`. -/
def ctL4Codes_7 : List (List Nat × Nat) :=
  [([7, 0, 0, 4], 7), ([7, 0, 0, 7], 8), ([7, 0, 2, 4], 12), ([7, 0, 2, 5], 11),
   ([7, 0, 3, 4], 14), ([7, 0, 3, 5], 12), ([7, 0, 4, 0], 7), ([7, 0, 4, 2], 12),
   ([7, 0, 4, 3], 14), ([7, 0, 5, 2], 11), ([7, 0, 5, 3], 12), ([7, 0, 7, 0], 8),
   ([7, 1, 1, 4], 7), ([7, 1, 1, 7], 8), ([7, 1, 2, 4], 15), ([7, 1, 2, 5], 13),
   ([7, 1, 3, 4], 12), ([7, 1, 3, 5], 11), ([7, 1, 4, 1], 7), ([7, 1, 4, 2], 15),
   ([7, 1, 4, 3], 12), ([7, 1, 5, 2], 13), ([7, 1, 5, 3], 11), ([7, 1, 7, 1], 8),
   ([7, 2, 0, 4], 12), ([7, 2, 0, 5], 11), ([7, 2, 1, 4], 15), ([7, 2, 1, 5], 13),
   ([7, 2, 2, 7], 18), ([7, 2, 4, 0], 12), ([7, 2, 4, 1], 15), ([7, 2, 5, 0], 11),
   ([7, 2, 5, 1], 13), ([7, 2, 7, 2], 18), ([7, 3, 0, 4], 14), ([7, 3, 0, 5], 12),
   ([7, 3, 1, 4], 12), ([7, 3, 1, 5], 11), ([7, 3, 3, 7], 18), ([7, 3, 4, 0], 14),
   ([7, 3, 4, 1], 12), ([7, 3, 5, 0], 12), ([7, 3, 5, 1], 11), ([7, 3, 7, 3], 18),
   ([7, 4, 0, 0], 7), ([7, 4, 0, 2], 12), ([7, 4, 0, 3], 14), ([7, 4, 1, 1], 7),
   ([7, 4, 1, 2], 15), ([7, 4, 1, 3], 12), ([7, 4, 2, 0], 12), ([7, 4, 2, 1], 15),
   ([7, 4, 3, 0], 14), ([7, 4, 3, 1], 12), ([7, 4, 4, 4], 1), ([7, 4, 4, 6], 5),
   ([7, 4, 4, 7], 6), ([7, 4, 5, 5], 7), ([7, 4, 5, 6], 10), ([7, 4, 5, 7], 5), ([7, 4, 6, 4], 5),
   ([7, 4, 6, 5], 10), ([7, 4, 7, 4], 6), ([7, 4, 7, 5], 5), ([7, 5, 0, 2], 11),
   ([7, 5, 0, 3], 12), ([7, 5, 1, 2], 13), ([7, 5, 1, 3], 11), ([7, 5, 2, 0], 11),
   ([7, 5, 2, 1], 13), ([7, 5, 3, 0], 12), ([7, 5, 3, 1], 11), ([7, 5, 4, 5], 7),
   ([7, 5, 4, 6], 10), ([7, 5, 4, 7], 5), ([7, 5, 5, 4], 7), ([7, 5, 5, 6], 9), ([7, 5, 5, 7], 4),
   ([7, 5, 6, 4], 10), ([7, 5, 6, 5], 9), ([7, 5, 7, 4], 5), ([7, 5, 7, 5], 4), ([7, 6, 4, 4], 5),
   ([7, 6, 4, 5], 10), ([7, 6, 5, 4], 10), ([7, 6, 5, 5], 9), ([7, 6, 6, 7], 18),
   ([7, 6, 7, 6], 18), ([7, 7, 0, 0], 8), ([7, 7, 1, 1], 8), ([7, 7, 2, 2], 18),
   ([7, 7, 3, 3], 18), ([7, 7, 4, 4], 6), ([7, 7, 4, 5], 5), ([7, 7, 5, 4], 5), ([7, 7, 5, 5], 4),
   ([7, 7, 6, 6], 18), ([7, 7, 7, 7], 17)]

set_option maxRecDepth 10000 in
theorem ctL4_0_coded (c : CT K) : ctL4_0 c = coded (ctL4Value c) ctL4Codes_0 := rfl

set_option maxRecDepth 10000 in
theorem ctL4_1_coded (c : CT K) : ctL4_1 c = coded (ctL4Value c) ctL4Codes_1 := rfl

set_option maxRecDepth 10000 in
theorem ctL4_2_coded (c : CT K) : ctL4_2 c = coded (ctL4Value c) ctL4Codes_2 := rfl

set_option maxRecDepth 10000 in
theorem ctL4_3_coded (c : CT K) : ctL4_3 c = coded (ctL4Value c) ctL4Codes_3 := rfl

set_option maxRecDepth 10000 in
theorem ctL4_4_coded (c : CT K) : ctL4_4 c = coded (ctL4Value c) ctL4Codes_4 := rfl

set_option maxRecDepth 10000 in
theorem ctL4_5_coded (c : CT K) : ctL4_5 c = coded (ctL4Value c) ctL4Codes_5 := rfl

set_option maxRecDepth 10000 in
theorem ctL4_6_coded (c : CT K) : ctL4_6 c = coded (ctL4Value c) ctL4Codes_6 := rfl

set_option maxRecDepth 10000 in
theorem ctL4_7_coded (c : CT K) : ctL4_7 c = coded (ctL4Value c) ctL4Codes_7 := rfl

/-- All numbers. -/
def ctL4Codes : List (List (List Nat × Nat)) :=
  [ctL4Codes_0, ctL4Codes_1, ctL4Codes_2, ctL4Codes_3, ctL4Codes_4, ctL4Codes_5, ctL4Codes_6,
   ctL4Codes_7]

theorem ctL4_symmetricBlocks : symmetricBlocks ctL4Codes swapFirst = true ∧
    symmetricBlocks ctL4Codes swapMid = true ∧ symmetricBlocks ctL4Codes swapLast = true := by
  decide +kernel

theorem ctL4_sym4 (c : CT K) : Sym4 8 (assign (ctL4 c) zeroTensor) :=
  sym4_blocks _ _ (ctL4_blocked c) (ctL4Value c) ctL4Codes (by
    rw [ctL4_0_coded, ctL4_1_coded, ctL4_2_coded, ctL4_3_coded, ctL4_4_coded, ctL4_5_coded,
      ctL4_6_coded, ctL4_7_coded]
    rfl) ctL4_symmetricBlocks.1 ctL4_symmetricBlocks.2.1
    ctL4_symmetricBlocks.2.2

end Verif.Lagrangian.C2HDM
