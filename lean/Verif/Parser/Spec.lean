import Verif.Outcome

/-!
# Specification of the argument parser and of the logger switches
-/

namespace Verif.Parser.Spec

abbrev Str := List Char

/-- Two names are the same argument when they agree ignoring the case of the letters A–Z. -/
def sameName (a b : Str) : Prop := a.map Char.toLower = b.map Char.toLower

instance (a b : Str) : Decidable (sameName a b) := by unfold sameName; infer_instance

/-- The last value given for a name in a list of settings. -/
def lastValue (name : Str) : List (Str × Str) → Option Str
  | [] => none
  | (k, v) :: rest =>
    match lastValue name rest with
    | some w => some w
    | none => if sameName k name then some v else none

end Verif.Parser.Spec
