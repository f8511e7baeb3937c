import Verif.Baryo.ConfigProps

/-!
# C85: errors of the interface
-/

namespace Verif.Baryo

open Outcome

variable {K M D : Type}

/-- The constructors accept exactly five switches and keep all of them; any other number is a runtime error. -/
theorem C85_construct (c : Config) (s : Interface K M D) :
    (c.methods.length = 5 → construct c s = ok { s with methods := c.methods, botMass := c.botMass }) ∧
    (c.methods.length ≠ 5 → construct c s = err .runtime) := by
  constructor <;> intro h <;> simp [construct, h]

/-- A switch that does not exist is an error of range, an existing one has its value. -/
theorem C85_switch (l : List Bool) (i : Nat) :
    (∀ h : i < l.length, flag l i = ok l[i]) ∧ (l.length ≤ i → flag l i = err .outOfRange) := by
  constructor <;> intro h <;> simp [flag, h]

end Verif.Baryo
