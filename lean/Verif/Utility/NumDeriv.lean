import Mathlib.Algebra.Field.Defs

/-!
# Numerical derivatives, src/utility/NumericalDerivatives.cpp

Doubles are elements of a field without rounding; the function is arbitrary.
-/

namespace Verif.Utility

variable {K : Type} [Field K]

/-- A copy of `phi` with `d` added to component `i` (`auto xp = phi; xp[i] += d;`). -/
def bump (phi : List K) (i : Nat) (d : K) : List K := phi.modify i (· + d)

/-- `NablaNumerical`, NumericalDerivatives.cpp:6-26. -/
def nablaNumerical (phi : List K) (f : List K → K) (eps : K) : List K :=
  (List.range phi.length).map fun i : Nat =>
    (-f (bump phi i (2 * eps)) + 8 * f (bump phi i eps) - 8 * f (bump phi i (-eps))
      + f (bump phi i (-(2 * eps)))) / (12 * eps)

/-- A diagonal element, NumericalDerivatives.cpp:38-49. -/
def hessianDiag (phi : List K) (V : List K → K) (eps : K) (i : Nat) : K :=
  (0 + V (bump phi i (2 * eps)) - 2 * V phi + V (bump phi i (-(2 * eps)))) / (4 * eps * eps)

/-- An element above the diagonal, NumericalDerivatives.cpp:52-76. -/
def hessianOff (phi : List K) (V : List K → K) (eps : K) (i j : Nat) : K :=
  (0 + V (bump (bump phi i eps) j eps) - V (bump (bump phi i eps) j (-eps))
    - V (bump (bump phi i (-eps)) j eps) + V (bump (bump phi i (-eps)) j (-eps))) / (4 * eps * eps)

/-- `HessianNumerical`, NumericalDerivatives.cpp:28-81: the elements above the diagonal are written
to both places. -/
def hessianNumerical (phi : List K) (V : List K → K) (eps : K) : List (List K) :=
  (List.range phi.length).map fun i : Nat => (List.range phi.length).map fun j : Nat =>
    if i = j then hessianDiag phi V eps i
    else if i < j then hessianOff phi V eps i j
    else hessianOff phi V eps j i

end Verif.Utility
