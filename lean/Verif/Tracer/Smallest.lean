import Verif.Flt
import Mathlib.Algebra.Order.Field.Basic

/-!
# Model of `MinimumTracer::SmallestEigenvalue`

The eigenvalues of the Hessian matrix (their real parts, in the order of the solver) are a parameter.
-/

namespace Verif.Tracer.Smallest

variable {K : Type} [Field K] [LinearOrder K]

/-- `std::min(element.real(), current_min)`, minimum_tracer.cpp:141: the second argument if it is smaller,
else the first. -/
def stdMin (element current : Flt K) : Flt K := if Flt.lt current element then current else element

/-- `SmallestEigenvalue`, minimum_tracer.cpp:124-145, from the eigenvalues on. -/
def smallest (evs : List (Flt K)) : Flt K :=
  (evs.foldl (fun cur e => stdMin e cur) (.fin (10 ^ 100))).map fun x => x + 1 / 10 ^ 7

end Verif.Tracer.Smallest
