import Verif.Tracer.Phase

/-!
# Specification of phases and pairs of phases
-/

namespace Verif.Tracer.Spec

variable {P K : Type} [Field K] [LinearOrder K]

/-- The minima are stored in strictly increasing order of the temperature. -/
def Ordered (p : Phase P K) : Prop := p.mins.Pairwise fun a b => a.temp < b.temp

/-- The recorded temperature range is the span of the stored minima. -/
def RangeExact (p : Phase P K) : Prop :=
  ∃ a b, p.mins.head? = some a ∧ p.mins.getLast? = some b ∧ p.tLow = a.temp ∧ p.tHigh = b.temp

/-- What a minimum says about the phase, without the flag for the edges. -/
def content (m : Minimum P K) : P × K × K := (m.point, m.temp, m.potential)

/-- `m` is the first element of the list at its temperature. -/
def FirstAt (m : Minimum P K) (l : List (Minimum P K)) : Prop :=
  ∃ pre post, l = pre ++ m :: post ∧ ∀ x ∈ pre, x.temp ≠ m.temp

/-- The phase exists at temperature `t`. -/
def ExistsAt (p : Phase P K) (t : K) : Prop := p.tLow ≤ t ∧ t ≤ p.tHigh

end Verif.Tracer.Spec
