import Verif.Outcome
import Verif.Flt
import Mathlib.Algebra.Order.Field.Basic
import Mathlib.Algebra.Order.Group.Abs

/-!
# The masses in the semi-classical force approach

`get_W_mass` and `get_top_mass_and_derivative`, src/baryo_calculation/transport_equations.cpp:368-443, from the
squared masses of the model on.
-/

namespace Verif.Fh

open Verif Outcome

variable {K : Type} [Field K] [LinearOrder K]

/-- `std::abs(res.at(i) - res.at(j)) <= 1e-5`, transport_equations.cpp:379. -/
def closeMass : Flt K → Flt K → Bool
  | .fin a, .fin b => decide (|a - b| ≤ 1 / 10 ^ 5)
  | _, _ => false

/-- `nrepeat[i]`, transport_equations.cpp:374-381, for a mass `a`. -/
def nrepeat (res : List (Flt K)) (n : ℕ) (a : Flt K) : ℕ :=
  ((List.range n).filter fun j => closeMass a (res.getD j .nan)).length

/-- The search from the end, transport_equations.cpp:383-396: the number of masses still to look at. -/
def searchW (res : List (Flt K)) (n : ℕ) : ℕ → Outcome (Flt K)
  | 0 => ok (.fin 0)
  | j + 1 =>
    let a := res.getD j .nan
    if nrepeat res n a > 1 then
      (match a with
        | .nan => err .runtime
        | .fin x => ok (.fin x))
    else searchW res n j

/-- `get_W_mass`, transport_equations.cpp:368-397; `res` are the squared gauge boson masses, `n` is `get_NGauge()`.
`at` raises an exception if there are fewer masses. -/
def wMass (n : ℕ) (res : List (Flt K)) : Outcome (Flt K) :=
  if res.length < n then err .outOfRange else searchW res n n

/-- The loop over the fields, transport_equations.cpp:408-414: `quarks i` are the squared masses and their
derivatives with respect to the field `i`; the mass is taken as long as it is `-1`. -/
def topLoop (nq : ℕ) (quarks : ℕ → List (Flt K)) : List ℕ → Flt K → List (Flt K) → Outcome (Flt K × List (Flt K))
  | [], m, ds => ok (m, ds)
  | i :: is, m, ds => do
    let m ← (if m = .fin (-1) then at' (quarks i) (nq - 1) else ok m)
    let d ← at' (quarks i) (2 * nq - 1)
    topLoop nq quarks is m (ds ++ [d])

/-- The checks for NaN, transport_equations.cpp:415-442. -/
def nanCheck : List (Flt K) → Outcome Unit
  | [] => ok ()
  | .nan :: _ => err .runtime
  | .fin _ :: ds => nanCheck ds

/-- `get_top_mass_and_derivative`, transport_equations.cpp:399-443, with `nq` quarks, at least one, and `nh`
fields. -/
def topMass (nq nh : ℕ) (quarks : ℕ → List (Flt K)) : Outcome (List (Flt K)) := do
  let (m, ds) ← topLoop nq quarks ((List.range nh).map (· + 1)) (.fin (-1)) []
  nanCheck (m :: ds)
  ok (m :: ds)

end Verif.Fh
