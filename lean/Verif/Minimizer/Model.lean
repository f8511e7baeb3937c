import Verif.Outcome
import Verif.Flt
import Mathlib.Algebra.Order.Field.Basic

/-!
# Model of `src/minimizer/Minimizer.cpp`, `MinimizeGSL.cpp`, `LibNLOPT/MinimizeNLOPT.cpp`
-/

namespace Verif.Minimizer

/-! ## Selection code -/

/-- `struct MinimizersToUse`, Minimizer.h:72-83. -/
structure Use where
  cmaes : Bool
  gsl : Bool
  nlopt : Bool
  deriving DecidableEq, Repr

/-- `CalcWhichMinimizer(UseGSL, UseCMAES, UseNLopt)`, Minimizer.h:61-67. -/
def calcWhichMinimizer (useGSL useCMAES useNLopt : Bool) : Int :=
  (if useCMAES then 1 else 0) + 2 * (if useGSL then 1 else 0) + 4 * (if useNLopt then 1 else 0)

/-- `GetMinimizers`, Minimizer.cpp:64-81.  `%` and `/` on `int` truncate towards zero.  The two
first arguments say with which libraries the code was compiled (`libcmaes_FOUND`, `NLopt_FOUND`). -/
def getMinimizers (cmaesFound nloptFound : Bool) (which : Int) : Use :=
  let c := which.tmod 2 != 0
  let w := which.tdiv 2
  let g := w.tmod 2 != 0
  let w := w.tdiv 2
  let n := w.tmod 2 != 0
  ⟨if cmaesFound then c else false, g, if nloptFound then n else false⟩

/-! ## Choice of the lowest candidate -/

/-- A candidate: a point and the value of the potential there. -/
structure Cand (P α : Type) where
  point : P
  value : Flt α
  deriving DecidableEq

/-- What the minimizers deliver when they are run: NLopt a candidate or no success
(Minimizer.cpp:202-210), CMAES a candidate and a status (Minimizer.cpp:217-223), GSL a candidate or
no success (Minimizer.cpp:239-250).  `origin` is the zero vector with its potential value
(Minimizer.cpp:97-102). -/
structure Found (P α : Type) where
  origin : Cand P α
  nlopt : Option (Cand P α)
  cmaes : Cand P α
  cmaesStatus : Int
  gsl : Option (Cand P α)

/-- Which minimizers run, Minimizer.cpp:94 and 104-108. -/
def effective (use : Use) (nVEV : Nat) : Use :=
  if nVEV ≤ 2 then { use with cmaes := false, gsl := true } else use

/-- The vectors `PotValues`/`Minima`, Minimizer.cpp:97-250, in order.  The result of CMAES is only
fetched when its thread is joinable, i.e. with multithreading (line 214); a minimizer that was not
run leaves its `Success` flag false. -/
def candidates {P α : Type} (use : Use) (multithreading : Bool) (f : Found P α) :
    List (Cand P α) :=
  [f.origin]
  ++ (if use.nlopt then f.nlopt.toList else [])
  ++ (if multithreading && use.cmaes then [f.cmaes] else [])
  ++ (if use.gsl then f.gsl.toList else [])

/-- The loop Minimizer.cpp:252-256, written on the candidates instead of their indices. -/
def argmin {P α : Type} [LinearOrder α] (first : Cand P α) (rest : List (Cand P α)) : Cand P α :=
  rest.foldl (fun best c => if c.value.lt best.value then c else best) first

/-- `Minimize_gen_all`, Minimizer.cpp:83-269.  `ewsbvev` and `setEWVEVZero` are the model's functions
used in lines 259-260; `half` is 0.5.  The second component is what is appended to `Check`
(lines 223 and 262-266). -/
def minimizeGenAll {P α : Type} [LinearOrder α] (half : α) (ewsbvev : P → Flt α)
    (setEWVEVZero : P → P) (use : Use) (nVEV : Nat) (multithreading : Bool) (f : Found P α) :
    P × List Int :=
  let use := effective use nVEV
  let best := match candidates use multithreading f with
    | [] => f.origin
    | c :: cs => argmin c cs
  let sol := if (ewsbvev best.point).le (.fin half) then setEWVEVZero best.point else best.point
  let gslOk := use.gsl && f.gsl.isSome
  (sol, (if multithreading && use.cmaes then [f.cmaesStatus] else []) ++ [if gslOk then 1 else -1])

/-- The final selection in `GSL_Minimize_gen_all`, MinimizeGSL.cpp:295-309: the loop replaces the
best row whenever the new value is `<=` the old one.  `none` stands for "no solution found"
(lines 279-285). -/
def gslSelect {P α : Type} [LinearOrder α] : List (Cand P α) → Option (Cand P α)
  | [] => none
  | c :: cs => some (cs.foldl (fun best c => if c.value.le best.value then c else best) c)

/-! ## PTFinder_gen_all -/

/-- `enum class MinimizerStatus`, Minimizer.h:116-125. -/
inductive Status where
  | success | notVanishingAtFinalTemp | notNLOStable | numericallyUnstable | belowThreshold
  | nloVEVZeroOrInf
  deriving DecidableEq, Repr

/-- The integer value of the status, Minimizer.h:118-123. -/
def Status.code : Status → Int
  | .success => 1
  | .notVanishingAtFinalTemp => -1
  | .notNLOStable => -2
  | .numericallyUnstable => -3
  | .belowThreshold => -4
  | .nloVEVZeroOrInf => -5

/-- `struct EWPTReturnType`, Minimizer.h:144-151. -/
structure PTResult (P K : Type) where
  tc : K
  vc : Flt K
  status : Status
  ewMinimum : P

/-- The global minimum found by the `k`-th call of `Minimize_gen_all`, at a temperature, from a start
vector, together with its electroweak VEV.  The call counter makes the search free to give
different answers to the same question. -/
abbrev Search (P K : Type) := Nat → K → P → P × Flt K

section PT

variable {P K : Type} [Field K] [LinearOrder K]

/-- State of the bisection: `TA`, `TE`, `pSol` (its first entry and the rest), `startMitte`. -/
structure PTState (P K : Type) where
  ta : K
  te : K
  v : Flt K
  sol : P
  start : P

/-- The `do ... while` loop, Minimizer.cpp:348-404.  `Distance` is 1e-2 (line 288), `C_PT` is 0.
`none`: not finished after `fuel` passes. -/
def ptLoop (search : Search P K) : (fuel call : Nat) → PTState P K → Option (PTResult P K)
  | 0, _, _ => none
  | fuel + 1, call, s =>
    let tm := (1 / 2) * (s.ta + s.te)
    let (sol, v) := search call tm s.start
    if v.ge (.fin 255) then some ⟨tm, v, .numericallyUnstable, sol⟩
    else if v.ne (.fin 0) && (v.map (· / tm)).lt (.fin 0) then some ⟨tm, v, .belowThreshold, sol⟩
    else
      let s' : PTState P K :=
        if v.ge (.fin (1 / 100)) then { s with ta := tm, v := v, sol := sol, start := sol }
        else { s with te := tm }
      if |s'.te - s'.ta| > 1 / 100 then ptLoop search fuel (call + 1) s'
      else some ⟨s'.ta, s'.v, .success, s'.sol⟩

/-- `PTFinder_gen_all`, Minimizer.cpp:271-405.  `tree` is `vevTreeMin`, `zeroP` the zero vector of
length `nVEV`, `nloStable` is `CheckNLOVEV`; `C_threshold` is 1e-4. -/
def ptFinder (search : Search P K) (nloStable : P → Bool) (tree zeroP : P) (tStart tEnd : K)
    (fuel : Nat) : Option (PTResult P K) :=
  let (solEnd, vEnd) := search 0 tEnd tree
  if vEnd.gt (.fin (1 / 10000)) then some ⟨tEnd, vEnd, .notVanishingAtFinalTemp, solEnd⟩
  else
    let (solStart, vStart) := search 1 tStart tree
    if vStart.le (.fin (1 / 10000)) || vStart.ge (.fin 255) then
      some ⟨tEnd, .fin 0, .nloVEVZeroOrInf, zeroP⟩
    else if !nloStable solStart && decide (tStart = 0) then
      some ⟨tEnd, vStart, .notNLOStable, solStart⟩
    else ptLoop search fuel 2 ⟨tStart, tEnd, .fin 0, zeroP, tree⟩

end PT

/-! ## NLopt search box -/

/-- The bounds of one coordinate in `MinimizeUsingNLOPT`, MinimizeNLOPT.cpp:39-51, for the tree-level
VEV `v` (the same computation is repeated in `MinimizePlaneUsingNLOPT`, lines 95-124). -/
def nloptBounds {K : Type} [Field K] [LinearOrder K] (v : K) : K × K :=
  let upper : K := if |v| > 300 then (3 / 2) * v else 300
  let lower : K := if -|v| < -300 then -(3 / 2) * |v| else -300
  (lower, upper)

/-! ## MinimaDevelopmentWithTemperature -/

section Development

variable {P K : Type} [Field K] [LinearOrder K]

/-- `FindNextLocalMinima`, Minimizer.cpp:446-488: at most one minimum per selected minimizer, GSL
first.  `gsl k` is the result of the `k`-th attempt (`none`: status other than `GSL_SUCCESS`), at
most 600 attempts; `nlopt` the NLopt result. -/
def findNextLocalMinima (use : Use) (gsl : Nat → Option P) (nlopt : Option P) : List P :=
  let g := if use.gsl then ((List.range 600).findSome? gsl).toList else []
  let n := if use.nlopt then nlopt.toList else []
  g ++ n

/-- The stopping criterion, Minimizer.cpp:533-546: `true` means "continue". -/
def developmentContinues (tStart tFinal step t : K) : Bool :=
  let eps := |(tFinal - tStart) / step| * (1 / 100)
  if tStart < tFinal then decide (t < tFinal + eps) else decide (t > tFinal - eps)

/-- The loop Minimizer.cpp:548-566: from the temperature `t`, for at most `fuel` steps; `none`: not
finished. `next t p` are the local minima found at `t` from `p`.  `Point.at(Point.size()-1)` is the
last element of a never-empty track. -/
def developmentLoop (next : K → P → List P) (tStart tFinal step : K) :
    (fuel : Nat) → (t : K) → List (List (K × P)) → Option (List (List (K × P)))
  | 0, t, res => if developmentContinues tStart tFinal step t then none else some res
  | fuel + 1, t, res =>
    if developmentContinues tStart tFinal step t then
      let res' := res.flatMap fun track =>
        match track.getLast? with
        | some (_, p) => (next t p).map fun m => track ++ [(t, m)]
        | none => []
      developmentLoop next tStart tFinal step fuel (t + step) res'
    else some res

/-- `MinimaDevelopmentWithTemperature`, Minimizer.cpp:490-569, for a given list of starting
points. -/
def development (next : K → P → List P) (tStart tFinal step : K) (starts : List P) (fuel : Nat) :
    Option (List (List (K × P))) :=
  let res := starts.flatMap fun s => (next tStart s).map fun m => [(tStart, m)]
  developmentLoop next tStart tFinal step fuel (tStart + step) res

end Development

end Verif.Minimizer
