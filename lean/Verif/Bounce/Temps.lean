import Verif.Bounce.Scan

/-!
# Model of the characteristic temperatures and of the transition strength (`BounceSolution`)

The tunnelling rate, the interpolated action and the false-vacuum integral are parameters that may
return NaN (`Flt`).  Temperatures are elements of an ordered field (no rounding); the marker -1 for
"not found" is kept.
-/

namespace Verif.Bounce

open Verif Verif.Outcome Verif.Tracer

variable {K W : Type} [Field K] [LinearOrder K]

/-- The search for the two bracketing temperatures, bounce_solution.cpp:609-621, 670-679 and 735-746:
the solutions are visited in the given order (from the highest temperature down); `up` and `down` are
set by the first temperature with `below` and `above`, and the search stops when both are positive. -/
def bracket (below above : K → Bool) : List K → K → K → K × K
  | [], up, down => (up, down)
  | t :: r, up, down =>
    let up := if up = -1 ∧ below t = true then t else up
    let down := if down = -1 ∧ above t = true then t else down
    if up > 0 ∧ down > 0 then (up, down) else bracket below above r up down

/-- The bisection of the two nucleation temperatures, bounce_solution.cpp:626-646 and 683-702, with
the number of remaining rounds. -/
def halve (below : K → Bool) : Nat → K → K → Option K
  | 0, _, _ => none
  | n + 1, up, down =>
    let m := (up + down) / 2
    let up' := if below m then m else up
    let down' := if below m then down else m
    if |up' / down' - 1| < 1 / 10 ^ 10 then some m else halve below n up' down'

/-- The search for a nucleation temperature, bounce_solution.cpp:605-647 and 666-703. -/
def nuclSearch (below above : K → Bool) (temps : List K) : Option K :=
  let b := bracket below above temps (-1) (-1)
  if b.1 > 0 ∧ b.2 > 0 then halve below 50 b.1 b.2 else none

/-- Status and temperature of one characteristic temperature. -/
structure Temp (K : Type) where
  status : TempStatus
  T : K

/-- `CalculateNucleationTemp`, bounce_solution.cpp:601-660; `rate` is the tunnelling rate divided by
the fourth power of the Hubble rate. -/
def nucleation (status : GWStatus) (sols : List K) (rate : K → Flt K) (old : Temp K) : Temp K :=
  if status = .success then
    match nuclSearch (fun t => (rate t).lt (.fin 1)) (fun t => (rate t).gt (.fin 1)) sols.reverse with
    | some t => ⟨.success, t⟩
    | none => ⟨.notMet, old.T⟩
  else old

/-- `CalculateNucleationTempApprox`, bounce_solution.cpp:662-715; `ratio` is the interpolated action
divided by the temperature. -/
def nucleationApprox (status : GWStatus) (sols : List K) (ratio : K → Flt K) (old : Temp K) : Temp K :=
  if status = .success then
    match nuclSearch (fun t => (ratio t).lt (.fin 140)) (fun t => (ratio t).gt (.fin 140))
        sols.reverse with
    | some t => ⟨.success, t⟩
    | none => ⟨.notMet, old.T⟩
  else old

/-- `almost_the_same` with a value that may be NaN and the default zero threshold. -/
def almostSameF (a : K) (b : Flt K) (rel : K) : Bool :=
  match b with
  | .fin b => almostSame a b rel (1 / 10 ^ 10)
  | .nan => false

/-- The bisection of `CalcTempAtFalseVacFraction`, bounce_solution.cpp:757-793; `cur` is `IatT`.
`fuel` bounds the rounds.  The result is -1 unless a temperature is accepted. -/
def fracLoop (I : K → Flt K) (goal : K) : Nat → K → K → Flt K → Option K
  | 0, _, _, _ => none
  | fuel + 1, up, down, cur =>
    if |up / down - 1| > 1 / 10 ^ 8 * (1 / 10 ^ 4) ∧
        almostSameF goal cur (1 / 10 ^ 3 * (1 / 10 ^ 4)) = false then
      let m := (up + down) / 2
      let i := I m
      let up' := if i.lt (.fin goal) then m else up
      let down' := if i.lt (.fin goal) then down else m
      if |up' / down' - 1| < 1 / 10 ^ 8 ∧ almostSameF goal i (1 / 10 ^ 3) = true then some m
      else fracLoop I goal fuel up' down' i
    else some (-1)

/-- `CalcTempAtFalseVacFraction`, bounce_solution.cpp:724-797; `goal` is minus the logarithm of the
fraction, `I` is the prefactor times the integral. -/
def tempAtFraction (I : K → Flt K) (goal : K) (fuel : Nat) (sols : List K) : Option K :=
  let b := bracket (fun t => (I t).lt (.fin goal)) (fun t => (I t).gt (.fin goal)) sols.reverse (-1) (-1)
  if b.1 > 0 ∧ b.2 > 0 then fracLoop I goal fuel b.1 b.2 (I ((b.1 + b.2) / 2)) else some (-1)

/-- The loop that adds an action in the middle of the interval containing `T`,
bounce_solution.cpp:809-813 and 838-842.  The list may grow while it is traversed; `fuel` bounds the
rounds. -/
def addMiddle (e : Env K W) (t : K) : Nat → Nat → List (Sol K W) → Option (List (Sol K W))
  | 0, _, _ => none
  | fuel + 1, i, l =>
    match l[i]?, l[i + 1]? with
    | some a, some b =>
      if t > a.T ∧ t < b.T then addMiddle e t fuel (i + 1) (calcAt e l ((a.T + b.T) / 2) true)
      else addMiddle e t fuel (i + 1) l
    | _, _ => some l

/-- State for the percolation and the completion temperature. -/
structure FracState (K W : Type) where
  st : State K W
  temp : Temp K
  isSet : Bool

/-- `CalculatePercolationTemp` and `CalculateCompletionTemp`, bounce_solution.cpp:799-856.  `I` is the
integral for given solutions and spline points; the former calls `SetBounceSol` after adding actions
(`refresh = true`), the latter does not.  (The integral also depends on the wall velocity, which does
not change here.) -/
def fracTemp (e : Env K W) (refresh : Bool) (I : List (Sol K W) → List (K × K) → K → Flt K) (goal : K)
    (fuel : Nat) (s : FracState K W) : Option (FracState K W) :=
  if s.st.status = .success then
    match tempAtFraction (I s.st.sols s.st.spline) goal fuel (s.st.sols.map Sol.T) with
    | none => none
    | some t =>
      if t > 0 ∧ s.isSet = false then
        match addMiddle e t fuel 0 s.st.sols with
        | none => none
        | some l =>
          let st' := if refresh then setBounceSol { s.st with sols := l } else { s.st with sols := l }
          match tempAtFraction (I st'.sols st'.spline) goal fuel (st'.sols.map Sol.T) with
          | none => none
          | some t' => some ⟨st', ⟨.success, t'⟩, true⟩
      else if t < 0 then some { s with temp := ⟨.notMet, t⟩ }
      else some { s with temp := ⟨s.temp.status, t⟩ }
  else some s

/-- `CalcTransitionTemp`, bounce_solution.cpp:520-557. -/
def transitionTemp (approx nucl perc compl : Temp K) (which : Int) : K :=
  if approx.status = .success ∧ which = 1 then approx.T
  else if nucl.status = .success ∧ which = 2 then nucl.T
  else if perc.status = .success ∧ which = 3 then perc.T
  else if compl.status = .success ∧ which = 4 then compl.T
  else -1

/-! ## Transition strength and wall velocity -/

/-- What `CalculatePTStrength` asks for. -/
structure PTEnv (K : Type) where
  /-- the percolation temperature for a wall velocity, once it has been set before -/
  perc : Flt K → K
  /-- the strength at a temperature, bounce_solution.cpp:961-982 -/
  strength : K → Flt K
  /-- the velocity of bounce_solution.cpp:1003-1023 (user value -1) -/
  approx : Flt K → K → Flt K
  /-- the velocity of bounce_solution.cpp:1024-1052 (user value -2) -/
  upper : Flt K → K → Flt K

/-- The part of the object that `CalculatePTStrength` changes. -/
structure PTState (K : Type) where
  alpha : Flt K
  vwall : Flt K
  tperc : K
  /-- `UserDefined_vwall` -/
  user : K

/-- `CalculateWallVelocity`, bounce_solution.cpp:992-1053. -/
def wallVelocity (e : PTEnv K) (s : PTState K) : Flt K :=
  if s.user ≥ 0 then .fin s.user
  else if s.user = -1 then e.approx s.alpha s.tperc
  else if s.user = -2 then e.upper s.alpha s.tperc
  else s.vwall

/-- `abs(alpha / old_alpha - 1) < 1e-7`; a division by zero gives infinity or NaN. -/
def converged (a old : Flt K) : Bool :=
  match a, old with
  | .fin a, .fin o => decide (o ≠ 0) && decide (|a / o - 1| < 1 / 10 ^ 7)
  | _, _ => false

/-- One round of the iteration, bounce_solution.cpp:957-983. -/
def ptRound (e : PTEnv K) (s : PTState K) : PTState K :=
  let t := e.perc s.vwall
  let s1 : PTState K := ⟨e.strength t, s.vwall, t, s.user⟩
  { s1 with vwall := wallVelocity e s1 }

/-- The rounds of one call, bounce_solution.cpp:949-984; `none` if none of them converges, together
with the state reached. -/
def ptRounds (e : PTEnv K) : Nat → PTState K → Bool × PTState K
  | 0, s => (false, s)
  | n + 1, s =>
    let s' := ptRound e s
    if converged s'.alpha s.alpha then (true, s') else ptRounds e n s'

/-- `CalculatePTStrength`, bounce_solution.cpp:934-990; `fuel` bounds the depth of the recursion. -/
def ptStrength (e : PTEnv K) (isSet : Bool) : Nat → PTState K → Option (Outcome (PTState K))
  | 0, _ => none
  | fuel + 1, s =>
    if isSet = false then some (err .runtime)
    else
      let s := { s with vwall := .fin (if s.user ≥ 0 then s.user else 95 / 100) }
      let r := ptRounds e 20 s
      if r.1 then some (ok r.2) else ptStrength e isSet fuel { r.2 with user := 95 / 100 }

end Verif.Bounce
