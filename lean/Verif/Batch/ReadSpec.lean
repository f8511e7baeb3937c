import Verif.Models.Model

/-!
# The columns of the input files

The names are those of the files in `example/` and of the comments in the `set_gen` functions.
-/

namespace Verif.Batch.Spec

open Models (Class)

/-- The first columns of a file with parameter points, as in `example/*_Input.dat`; a file may have more columns. -/
def documented : Class → List String
  | .sm => ["muSq", "lambda"]
  | .cxsm => ["v", "vs", "va", "msq", "lambda", "delta2", "b2", "d2", "Reb1", "Imb1", "Rea1", "Ima1"]
  | .r2hdm => ["type", "L1", "L2", "L3", "L4", "L5", "m12sq", "tbeta"]
  | .c2hdm => ["Type", "L1", "L2", "L3", "L4", "re_L5", "im_L5", "re_m12sq", "p_tbeta"]
  | .n2hdm => ["p_THDMtype", "p_L1", "p_L2", "p_L3", "p_L4", "p_L5", "p_L6", "p_L7", "p_L8", "p_vs", "p_tbeta", "p_m12sq"]
  | .cpinthedark => ["mHsm", "mH1", "mH2", "mH3", "mHp", "R11", "R12", "R13", "R21", "R22", "R23", "R31", "R32", "R33",
      "L1", "L2", "L3", "L4", "L5", "L6", "L7", "L8", "Tr", "Ti", "m11sq", "m22sq", "mssq"]
  | .template => ["ms", "lambda"]

/-- The parameters that `set_gen` and `initModel` take, in their order and with the names of the columns:
ClassPotentialSM.cpp:126-129, ClassPotentialCxSM.cpp:206-217, ClassPotentialR2HDM.cpp:221-229,
ClassPotentialC2HDM.cpp:223-232, ClassPotentialN2HDM.cpp:224-235, ClassPotentialCPintheDark.cpp:247-259,
ClassTemplate.cpp:181-182. -/
def parameters : Class → List String
  | .sm => ["muSq", "lambda"]
  | .cxsm => ["v", "vs", "va", "msq", "lambda", "delta2", "b2", "d2", "Reb1", "Imb1", "Rea1", "Ima1"]
  | .r2hdm => ["L1", "L2", "L3", "L4", "L5", "m12sq", "tbeta", "type"]
  | .c2hdm => ["L1", "L2", "L3", "L4", "re_L5", "im_L5", "re_m12sq", "p_tbeta", "Type"]
  | .n2hdm => ["p_L1", "p_L2", "p_L3", "p_L4", "p_L5", "p_L6", "p_L7", "p_L8", "p_tbeta", "p_vs", "p_m12sq", "p_THDMtype"]
  | .cpinthedark => ["m11sq", "m22sq", "mssq", "Tr", "Ti", "L1", "L2", "L3", "L4", "L5", "L6", "L7", "L8"]
  | .template => ["ms", "lambda"]

/-- A line whose cells have a tab between them. -/
def tabbed : List (List Char) → List Char
  | [] => []
  | [a] => a
  | a :: b :: l => a ++ '\t' :: tabbed (b :: l)

/-- A cell without white space. -/
def Cell (x : List Char) : Prop :=
  ∀ c ∈ x, c ≠ ' ' ∧ c ≠ '\t' ∧ c ≠ '\n' ∧ c ≠ '\x0b' ∧ c ≠ '\x0c' ∧ c ≠ '\r'

end Verif.Batch.Spec
