import Verif.Bounce.Scan

/-!
# Specification of the list of bounce actions
-/

namespace Verif.Bounce

variable {K W : Type} [Field K] [LinearOrder K]

/-- Every solution lies in the coexistence window and has a positive action over temperature. -/
def InWindow (e : Env K W) (l : List (Sol K W)) : Prop :=
  ∀ s ∈ l, e.tm ≤ s.T ∧ s.T ≤ e.tc ∧ posRatio s.action s.T = true

/-- Temperatures ascend from entry to entry by at least `δ`. -/
def Spaced (δ : K) (l : List (Sol K W)) : Prop := l.Pairwise fun a b => a.T + δ ≤ b.T

/-- `y` is an entry of `l` with the smallest distance to `t`. -/
def IsNearest (t : K) (l : List (Sol K W)) (y : Sol K W) : Prop :=
  y ∈ l ∧ ∀ x ∈ l, |t - y.T| ≤ |t - x.T|

/-- What a calculation of the action at `t` is expected to find, given the solutions so far. -/
def Finds (e : Env K W) (l : List (Sol K W)) (t : K) (smart : Bool) (r : Flt K × W) : Prop :=
  (l = [] ∧ r = e.straight t) ∨
  (l ≠ [] ∧ smart = false ∧ r = e.straight t) ∨
  (smart = true ∧ ∃ y, IsNearest t l y ∧ r = e.warped y.data t)

/-- The initial scan over a given list of temperatures. -/
def scanOver (e : Env K W) : List K → Flt K × Option W → List (Sol K W) → List (Sol K W)
  | [], _, l => l
  | t :: ts, last, l =>
    if e.viable t = false then scanOver e ts last l
    else
      let r := scanCalc e t last
      if lowEnough r t then addSol l t r else scanOver e ts (r.1, some r.2) (addSol l t r)

end Verif.Bounce
