import Verif.Outcome
import Verif.Tracer.Geometry

/-!
# Model of the calls the transition tracer makes for one pair of phases

The results of the calculations are parameters (`Calc`), each as a function of what the call is given.
-/

namespace Verif.Perc

open Verif Verif.Outcome Verif.Tracer

/-- `struct user_input`, transition_tracer.h:52-73: the members used or meant to be used for the temperatures. -/
structure Request (K : Type) where
  percFrac : K
  complFrac : K
  gwCalc : Bool
  which : Int

/-- Status and temperature found by one calculation; the temperature is only meaningful with the status success. -/
structure Found (K : Type) where
  status : TempStatus
  temp : K

/-- What `BounceSolution` finds: the nucleation temperatures, and the temperatures for a false vacuum fraction. -/
structure Calc (K G : Type) where
  approx : Found K
  nucl : Found K
  perc : K → Found K
  compl : K → Found K
  /-- strength, time scale and gravitational waves at the chosen temperature, given that there is a percolation
  temperature for the fraction -/
  waves : K → Int → G

/-- What is stored for the pair. -/
structure Stored (K G : Type) where
  approx : Option K
  nucl : Option K
  perc : Option K
  compl : Option K
  waves : Option G
  deriving DecidableEq

section

variable {K G : Type} [DivisionRing K]

/-- The default argument of `CalculatePercolationTemp`, bounce_solution.h:510. -/
def percDefault : K := 71 / 100

/-- The default argument of `CalculateCompletionTemp`, bounce_solution.h:518. -/
def complDefault : K := 1 / 100

/-- A temperature is stored when its status is success, e.g. transition_tracer.cpp:210-221. -/
def Found.store (f : Found K) : Option K := if f.status = .success then some f.temp else none

/-- `trans_status`, transition_tracer.cpp:255-274. -/
def chosen (c : Calc K G) (which : Int) : TempStatus :=
  if which = 1 then c.approx.status
  else if which = 2 then c.nucl.status
  else if which = 3 then (c.perc percDefault).status
  else if which = 4 then (c.compl complDefault).status
  else .notSet

/-- The body of the loop over pairs once there is a bounce solution, transition_tracer.cpp:154-329.  The calls in lines 207
and 230 have no argument.  `CalculatePTStrength` (line 282) throws without a percolation temperature,
bounce_solution.cpp:936-940; it repeats `CalculatePercolationTemp()` without argument (bounce_solution.cpp:957). -/
def pairCalls (r : Request K) (c : Calc K G) : Outcome (Stored K G) :=
  let s : Stored K G :=
    ⟨c.approx.store, c.nucl.store, (c.perc percDefault).store, (c.compl complDefault).store, none⟩
  if chosen c r.which = .success ∧ r.gwCalc = true then
    if (c.perc percDefault).status = .success then ok { s with waves := some (c.waves percDefault r.which) }
    else err .runtime
  else ok s

/-- The pairs of a point one after the other, transition_tracer.cpp:113: an exception ends the calculation of the
point. -/
def pointCalls (r : Request K) (cs : List (Calc K G)) : Outcome (List (Stored K G)) := cs.mapM (pairCalls r)

end

/-- The table of `CalcGW`: the file is written after every point, CalcGW.cpp:210-268, and an exception ends the program
with a failure, CalcGW.cpp:282-286.  `point` is the calculation of a line. -/
def program {L S : Type} (point : L → Outcome S) : List L → List S × Bool
  | [] => ([], true)
  | l :: r =>
    match point l with
    | .ok s => let p := program point r; (s :: p.1, p.2)
    | _ => ([], false)

end Verif.Perc
