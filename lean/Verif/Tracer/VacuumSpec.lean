import Verif.Tracer.Vacuum
import Verif.Tracer.PhaseSpec

/-!
# Specification of the registered phases and of their coverage in temperature
-/

namespace Verif.Tracer.Spec

variable {P K : Type} [Field K] [LinearOrder K]

/-- The first minimum is marked as lower edge (-1), the last as upper edge (+1), and they differ. -/
def Marked (p : Phase P K) : Prop :=
  2 ≤ p.mins.length ∧ (∃ a, p.mins.head? = some a ∧ a.edge = -1) ∧
    ∃ b, p.mins.getLast? = some b ∧ b.edge = 1

/-- What holds of every registered phase. -/
def Good (p : Phase P K) : Prop := Ordered p ∧ RangeExact p ∧ Marked p

/-- The same phase with possibly more minima. -/
def Grown (p q : Phase P K) : Prop :=
  q.id = p.id ∧ ∀ x ∈ p.mins.map content, x ∈ q.mins.map content

/-- The minima of a phase at the temperatures in `ts` are stored. -/
def Knows (p : Phase P K) (f : K → P) (ts : List K) : Prop :=
  ∀ t ∈ ts, ∃ m ∈ p.mins, m.temp = t ∧ m.point = f t

/-- The eleven temperatures that cut the common range into twelve equal pieces. -/
def twelfths (lo hi : K) : List K :=
  (List.range 11).map fun i : Nat => lo + ((i : K) + 1) * (hi - lo) / 12

/-- The number of phases that exist at a temperature. -/
def phasesAt (phases : List (Phase P K)) (t : K) : Nat :=
  phases.countP fun p => decide (p.tLow ≤ t) && decide (t ≤ p.tHigh)

/-- There is a temperature between two phases at which no phase exists. -/
def Gap (phases : List (Phase P K)) : Prop :=
  ∃ t, (∃ p ∈ phases, p.tLow < t) ∧ (∃ p ∈ phases, t < p.tHigh) ∧ phasesAt phases t = 0

/-- There is an interval of temperatures in which at least two phases exist. -/
def Coexist (phases : List (Phase P K)) : Prop :=
  ∃ a b, a < b ∧ ∀ t, a < t → t < b → 2 ≤ phasesAt phases t

end Verif.Tracer.Spec
