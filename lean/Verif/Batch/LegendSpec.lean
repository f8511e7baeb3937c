import Verif.Batch.Legend
import Verif.Transition.Spec

/-!
# What the names of columns mean
-/

namespace Verif.Batch.Spec

open Models (Class)
open Transition (columns)

/-- The quantities in the tables: a counterterm, given by the member of the class that holds it, the critical temperature, the
vacuum expectation value there, their ratio, the component of the minimum that belongs to a field, its distance from the
origin, the temperature and the value of the potential. -/
inductive Quantity where
  | counterterm (member : String)
  | tc
  | vc
  | ratio
  | field (i : Nat)
  | vev
  | temp
  | veff
  deriving DecidableEq

/-- The names of the counterterms, without order. -/
def ctDictionary : Class → List (String × String)
  | .sm => [("dmuSq", "dmuSq"), ("dlambda", "dlambda"), ("dT1", "dT1"), ("dT2", "dT2"), ("dT3", "dT3"), ("dT4", "dT4")]
  | .cxsm => [("dms", "dmsq"), ("dlambda", "dlambda"), ("ddelta2", "ddelta2"), ("db2", "db2"), ("dd2", "dd2"),
      ("dReb1", "dReb1"), ("dImb1", "dImb1"), ("dRea1", "dRea1"), ("dIma1", "dIma1"), ("dT1", "dT1"), ("dT2", "dT2"),
      ("dT3", "dT3"), ("dT4", "dT4"), ("dT5", "dT5"), ("dT6", "dT6")]
  | .r2hdm => [("Dm11sq", "Du1CT"), ("Dm22sq", "Du2CT"), ("Dm12sq", "DRu3CT"), ("DL1", "DL1CT"), ("DL2", "DL2CT"),
      ("DL3", "DL3CT"), ("DL4", "DL4CT"), ("DL5", "DRL5CT"), ("DT1", "DT1"), ("DT2", "DT2"), ("DT3", "DT3")]
  | .c2hdm => [("Dm11sq", "Du1CT"), ("Dm22sq", "Du2CT"), ("Dre_m12sq", "DRu3CT"), ("Dim_m12sq", "DIu3CT"), ("DL1", "DL1CT"),
      ("DL2", "DL2CT"), ("DL3", "DL3CT"), ("DL4", "DL4CT"), ("Dre_L5", "DRL5CT"), ("Dim_L5", "DIL5CT"), ("Dim_L6", "DIL6CT"),
      ("DTCharged", "DTCharged"), ("DT1", "DT1"), ("DT2", "DT2"), ("DT3", "DT3")]
  | .n2hdm => [("Du11sq", "Du1CT"), ("Du22sq", "Du2CT"), ("Dm12sq", "DRu3CT"), ("Dussq", "NDus"), ("DL1", "DL1CT"),
      ("DL2", "DL2CT"), ("DL3", "DL3CT"), ("DL4", "DL4CT"), ("DL5", "DRL5CT"), ("DL6", "NDL6"), ("DL7", "NDL7"),
      ("DL8", "NDL8"), ("DT1", "DT1"), ("DT2", "DT2"), ("DTs", "NDTS")]
  | .cpinthedark => [("dm11s", "dm11s"), ("dm22s", "dm22s"), ("dmSs", "dmSs"), ("dReA", "dReA"), ("dImA", "dImA"),
      ("dL1", "dL1"), ("dL2", "dL2"), ("dL3", "dL3"), ("dL4", "dL4"), ("dL5", "dL5"), ("dL6", "dL6"), ("dL7", "dL7"),
      ("dL8", "dL8"), ("dImL5", "dImL5"), ("dT1", "dT1"), ("dT2", "dT2"), ("dTCP", "dTCP"), ("dTCB", "dTCB"), ("dTS", "dTS")]
  | .template => [("dT", "dT"), ("dlambda", "dlambda"), ("dmsquared", "dms")]

/-- The names of the components of a minimum, without order; the fields are those of the comments beside `VevOrder`. -/
def vevDictionary : Class → List (String × Nat)
  | .sm => [("omega", 2)]
  | .cxsm => [("omega", 3), ("omega_s", 4), ("omega_a", 5)]
  | .r2hdm => [("omega_1", 4), ("omega_2", 6), ("omega_CP", 7), ("omega_CB", 2)]
  | .c2hdm => [("omega_1", 4), ("omega_2", 6), ("omega_CP", 7), ("omega_CB", 2)]
  | .n2hdm => [("omega_1", 6), ("omega_2", 7), ("omega_s", 8), ("omega_{CP}", 5), ("omega_{CB}", 1)]
  | .cpinthedark => [("omega_1", 4), ("omega_2", 6), ("omega_S", 8), ("omega_{CP}", 7), ("omega_{CB}", 2)]
  | .template => [("omega", 0)]

/-- The names of quantities at the critical temperature. -/
def tempDictionary : Class → List (String × Quantity)
  | .sm => [("T_c", .tc), ("v_c", .vc), ("omega_c/T_c", .ratio), ("omega_c", .field 2)]
  | .cxsm => [("T_c", .tc), ("v_c", .vc), ("omega_c/T_c", .ratio), ("omega_c", .field 3), ("omega_sc", .field 4),
      ("omega_ac", .field 5)]
  | .template => [("T_c", .tc), ("v_c", .vc), ("v_c/T_c", .ratio), ("omega", .field 0)]
  | .cpinthedark => [("T_c", .tc), ("v_c", .vc), ("v_c/T_c", .ratio)] ++
      (vevDictionary .cpinthedark).map fun p => (p.1 ++ "(T_c)", .field p.2)
  | c => [("T_c", .tc), ("omega_c", .vc), ("omega_c/T_c", .ratio)] ++
      (vevDictionary c).map fun p => (p.1 ++ "(T_c)", .field p.2)

/-- The text of a quantity: a counterterm from the argument of `set_CT_Pot_Par`, a field from the vector of the minimizer. -/
def text (cb : Bool) (c : Class) (p : Point) : Quantity → Option (List Char)
  | .counterterm m => ((setCT c).idxOf? m).bind fun i => p.ct[i]?
  | .tc => some p.tc
  | .vc => some p.vc
  | .ratio => some p.ratio
  | .field f => ((c.vevOrder cb).idxOf? f).bind fun i => p.minimum[i]?
  | .vev => some p.vev
  | .temp => some p.temp
  | .veff => some p.veff

/-- The columns that are added to a header and a row.  Every name occurs once and means the quantity whose text is below it. -/
def Described (cb : Bool) (c : Class) (p : Point) (dictionary : List (String × Quantity))
    (table : List (String × List Char)) : Prop :=
  (table.map (·.1)).Nodup ∧ ∀ e ∈ table, ∃ q, (e.1, q) ∈ dictionary ∧ text cb c p q = some e.2

/-- The dictionary of counterterms. -/
def cts (c : Class) : List (String × Quantity) := (ctDictionary c).map fun p => (p.1, .counterterm p.2)

/-- The dictionary of components of a minimum. -/
def vevs (c : Class) : List (String × Quantity) := (vevDictionary c).map fun p => (p.1, .field p.2)

/-- A point whose vectors have the sizes of the model, written without tabs. -/
structure Written (cb : Bool) (c : Class) (p : Point) : Prop where
  ct : p.ct.length = (setCT c).length
  minimum : p.minimum.length = (c.vevOrder cb).length
  tabs : ∀ x ∈ p.ct ++ p.minimum ++ [p.tc, p.vc, p.ratio, p.status, p.vev, p.temp, p.veff], '\t' ∉ x

end Verif.Batch.Spec
