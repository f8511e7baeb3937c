import Verif.Tracer.Track

/-!
# What it means to follow a minimum in temperature
-/

namespace Verif.Tracer

section

variable {P K : Type} [Field K] [LinearOrder K]

/-- `m` is a minimum found from `p`: it is where the local search from `p` at the temperature of `m` ends,
the gradient is small there, it is not further away from `p` than the number of VEVs, and it is not a saddle
point (unless saddle points are allowed). -/
def Continues (e : Env P K) (unprotected : Bool) (p : P) (m : Minimum P K) : Prop :=
  m.point = e.locate p m.temp ∧ m.potential = e.pot m.point m.temp ∧ e.bad m.point m.temp = false ∧
    e.dist m.point p ≤ e.dim ∧ (unprotected = true ∨ e.neg m.point m.temp = false)

/-- Each minimum of the list is found from its predecessor, the first one from `p`. -/
def Followed (e : Env P K) (unprotected : Bool) : P → List (Minimum P K) → Prop
  | _, [] => True
  | p, m :: l => Continues e unprotected p m ∧ Followed e unprotected m.point l

/-- The point where a list of minima that started at `p` ends. -/
def endPoint (p : P) : List (Minimum P K) → P
  | [] => p
  | m :: l => endPoint m.point l

end

end Verif.Tracer
