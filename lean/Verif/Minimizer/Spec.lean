import Verif.Minimizer.Model

/-!
# Specification of the minimizer interface
-/

namespace Verif.Minimizer.Spec

/-- `c` was found by one of the selected minimizers, or is the origin, which is always a candidate.
This does not depend on how the minimizers are scheduled. -/
def IsCandidate {P α : Type} (use : Use) (f : Found P α) (c : Cand P α) : Prop :=
  c = f.origin ∨ (use.nlopt = true ∧ f.nlopt = some c) ∨ (use.cmaes = true ∧ c = f.cmaes) ∨
    (use.gsl = true ∧ f.gsl = some c)

/-- `c` is not above any of the candidates with a number as potential value. -/
def Lowest {P α : Type} [LinearOrder α] (isCand : Cand P α → Prop) (c : Cand P α) : Prop :=
  ∃ v, c.value = .fin v ∧ ∀ d w, isCand d → d.value = .fin w → v ≤ w

/-- `x` lies between `a` and `b`, in whichever order these are given. -/
def Between {K : Type} [LinearOrder K] (a b x : K) : Prop := min a b ≤ x ∧ x ≤ max a b

/-- The value is a number which is at least `b`. -/
def AtLeast {K : Type} [LinearOrder K] (v : Flt K) (b : K) : Prop := ∃ x, v = .fin x ∧ b ≤ x

/-- A minimum followed through the temperatures `tStart`, `tStart + step`, ...: the first point is a
local minimum found from one of the start points, every further one a local minimum found from its
predecessor at the next temperature. -/
inductive IsTrack {P K : Type} [Add K] (next : K → P → List P) (tStart step : K) (starts : List P) :
    List (K × P) → Prop
  | start (s p : P) : s ∈ starts → p ∈ next tStart s → IsTrack next tStart step starts [(tStart, p)]
  | extend (tr : List (K × P)) (t : K) (p q : P) : IsTrack next tStart step starts (tr ++ [(t, p)]) →
      q ∈ next (t + step) p → IsTrack next tStart step starts (tr ++ [(t, p), (t + step, q)])

end Verif.Minimizer.Spec
