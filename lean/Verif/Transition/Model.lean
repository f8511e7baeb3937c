import Verif.Tracer.Vacuum

/-!
# Model of `TransitionTracer` and of the tables written by `CalcTemps` and `CalcGW`

Numbers that may be NaN are `Option K`, `none` for NaN or for an optional that was never set: the code
reads optionals only through `value_or(EmptyValue)`, where `EmptyValue` is NaN.  The calculations of the
bounce solution and of the gravitational waves are inputs (`PairEnv`).
-/

namespace Verif.Transition

open Outcome Verif.Tracer

/-- `struct gw_data`, transition_tracer.h:119-139. -/
structure GW (K : Type) where
  status : GWStatus := .notSet
  transTemp : Option K := none
  vwall : Option K := none
  alpha : Option K := none
  betaH : Option K := none
  kSw : Option K := none
  fpeakSw : Option K := none
  h2Sw : Option K := none
  snrSw : Option K := none
  kTurb : Option K := none
  fpeakTurb : Option K := none
  h2Turb : Option K := none
  snrTurb : Option K := none
  snr : Option K := none
  deriving DecidableEq, Repr

/-- One characteristic temperature with the two VEVs, three members of `struct transition_data`,
transition_tracer.h:96-114. -/
structure Stage (K : Type) where
  temp : Option K := none
  falseVev : List (Option K) := []
  trueVev : List (Option K) := []
  deriving DecidableEq, Repr

/-- `struct transition_data`, transition_tracer.h:96-114. -/
structure Trans (K : Type) where
  crit : Stage K := {}
  approx : Stage K := {}
  nucl : Stage K := {}
  perc : Stage K := {}
  compl : Stage K := {}
  deriving DecidableEq, Repr

/-- What the library finds for one pair of coexisting phases.  `falseVev`/`trueVev` are
`pair.false_phase.Get(T).point` and `pair.true_phase.Get(T).point` (modelled in `Phase.get`; that `Get`
may store further minima in the phase is left out here).  The four calculations are given by their
status and by the temperature found. -/
structure PairEnv (K : Type) where
  pairId : Nat
  falseId : Nat
  trueId : Nat
  critStatus : Crit
  critTemp : Option K
  bounce : GWStatus
  approx : TempStatus × Option K
  nucl : TempStatus × Option K
  perc : TempStatus × Option K
  compl : TempStatus × Option K
  falseVev : Option K → List (Option K)
  trueVev : Option K → List (Option K)
  gwStart : GW K
  gwFull : GW K

/-- `struct status_codes` and the vectors of `struct output`, transition_tracer.h:78-93 and 141-153. -/
structure Store (K : Type) where
  crit : List Crit := []
  bounce : List GWStatus := []
  approx : List TempStatus := []
  nucl : List TempStatus := []
  perc : List TempStatus := []
  compl : List TempStatus := []
  data : List (Trans K) := []
  gw : List (GW K) := []

/-- `std::vector<double>(num_vev, EmptyValue)` for both VEVs, e.g. transition_tracer.cpp:176-182. -/
def emptyStage {K : Type} (n : Nat) : Stage K := ⟨none, List.replicate n none, List.replicate n none⟩

/-- The two branches after each calculation, transition_tracer.cpp:156-181, 186-205, 210-229, 234-255. -/
def stageOf {K : Type} (n : Nat) (e : PairEnv K) (s : TempStatus × Option K) : Stage K :=
  if s.1 = .success then ⟨s.2, e.falseVev s.2, e.trueVev s.2⟩ else emptyStage n

/-- The choice of the transition temperature, transition_tracer.cpp:257-274. -/
def transStatus {K : Type} (which : Int) (e : PairEnv K) : TempStatus :=
  if which = 1 then e.approx.1
  else if which = 2 then e.nucl.1
  else if which = 3 then e.perc.1
  else if which = 4 then e.compl.1
  else .notSet

/-- The calculation of the gravitational waves, transition_tracer.cpp:276-331.  `gwStart` is the data after
the first part (status, temperature, velocity, strength, time scale), `gwFull` after the second. -/
def gwOf {K : Type} (gwCalc : Bool) (which : Int) (e : PairEnv K) : GW K :=
  if transStatus which e = .success ∧ gwCalc = true then
    if e.gwStart.status ≠ .failure then e.gwFull else e.gwStart
  else {}

/-- The body of the loop over the pairs, transition_tracer.cpp:109-405. -/
def pairStep {K : Type} (n : Nat) (gwCalc : Bool) (which : Int) (s : Store K) (e : PairEnv K) : Store K :=
  let s := { s with crit := s.crit ++ [e.critStatus] }
  if e.critStatus = .success ∨ e.critStatus = .trueLower then
    let c : Stage K := ⟨e.critTemp, e.falseVev e.critTemp, e.trueVev e.critTemp⟩
    let s := { s with bounce := s.bounce ++ [e.bounce] }
    if e.bounce = .success then
      { s with
        approx := s.approx ++ [e.approx.1]
        nucl := s.nucl ++ [e.nucl.1]
        perc := s.perc ++ [e.perc.1]
        compl := s.compl ++ [e.compl.1]
        data := s.data ++
          [⟨c, stageOf n e e.approx, stageOf n e e.nucl, stageOf n e e.perc, stageOf n e e.compl⟩]
        gw := s.gw ++ [gwOf gwCalc which e] }
    else
      { s with
        approx := s.approx ++ [.nan]
        nucl := s.nucl ++ [.nan]
        perc := s.perc ++ [.nan]
        compl := s.compl ++ [.nan]
        data := s.data ++ [⟨c, emptyStage n, emptyStage n, emptyStage n, emptyStage n⟩]
        gw := s.gw ++ [{}] }
  else
    { s with
      bounce := s.bounce ++ [.notSet]
      approx := s.approx ++ [.nan]
      nucl := s.nucl ++ [.nan]
      perc := s.perc ++ [.nan]
      compl := s.compl ++ [.nan]
      data := s.data ++
        [⟨{ emptyStage n with temp := e.critTemp }, emptyStage n, emptyStage n, emptyStage n, emptyStage n⟩]
      gw := s.gw ++ [{}] }

/-- The loop over the pairs, transition_tracer.cpp:109-405. -/
def pairLoop {K : Type} (n : Nat) (gwCalc : Bool) (which : Int) (l : List (PairEnv K)) : Store K :=
  l.foldl (pairStep n gwCalc which) {}

/-! ## The transition history -/

/-- The variables `tmp_compl_temp`, `tmp_next_phase_id` and `tmp_pair_id` of the search, initially -1, -1
and not read before they are set; the ids are `none` for -1. -/
structure Pick (K : Type) where
  temp : K
  next : Option Nat
  pair : Nat
  deriving DecidableEq, Repr

section History

variable {K : Type} [Field K] [LinearOrder K]

/-- The body of the inner loop, transition_tracer.cpp:418-452. -/
def pickStep (data : List (Trans K)) (cur : Nat) (s : Pick K) (e : PairEnv K) : Outcome (Pick K) :=
  if e.falseId = cur then
    match data[e.pairId]? with
    | none => err .outOfRange
    | some d =>
      match d.compl.temp with
      | none => ok s
      | some t =>
        if s.temp = -1 then ok ⟨t, some e.trueId, e.pairId⟩
        else if t > s.temp then ok ⟨t, some e.trueId, e.pairId⟩
        else ok s
  else ok s

/-- The inner loop, transition_tracer.cpp:415-452. -/
def pick (data : List (Trans K)) (cur : Nat) (l : List (PairEnv K)) : Outcome (Pick K) :=
  l.foldlM (pickStep data cur) ⟨-1, none, 0⟩

/-- The outer loop, transition_tracer.cpp:411-467: the phases and the pairs gone through.  `none` when the
fuel does not suffice. -/
def historyLoop (data : List (Trans K)) (l : List (PairEnv K)) :
    Nat → Nat → List Nat → List Nat → Option (Outcome (List Nat × List Nat))
  | 0, _, _, _ => none
  | fuel + 1, cur, hist, pairs =>
    match pick data cur l with
    | .err e => some (.err e)
    | .ub u => some (.ub u)
    | .ok p =>
      match p.next with
      | none => some (.ok (hist ++ [cur], pairs))
      | some nxt => historyLoop data l fuel nxt (hist ++ [cur]) (pairs ++ [p.pair])

/-- The history from the start, transition_tracer.cpp:407-467. -/
def history (data : List (Trans K)) (l : List (PairEnv K)) (fuel : Nat) :
    Option (Outcome (List Nat × List Nat)) :=
  historyLoop data l fuel 0 [] []

end History

/-- `std::to_string` of a non-negative integer. -/
def natStr (n : Nat) : List Char := Nat.toDigits 10 n

/-- The loop that appends the steps, transition_tracer.cpp:472-477. -/
def stepsText : List Nat → List Nat → Outcome (List Char)
  | [], _ => ok []
  | _ :: _, [] => err .outOfRange
  | h :: hs, p :: ps => do
    let rest ← stepsText hs ps
    ok ("-(".toList ++ natStr p ++ ")->".toList ++ natStr h ++ rest)

/-- The text of the history, transition_tracer.cpp:468-478. -/
def historyText (hist pairs : List Nat) : Outcome (List Char) :=
  match hist with
  | [] => err .outOfRange
  | h :: hs => do
    let rest ← stepsText hs pairs
    ok (natStr h ++ rest)

/-! ## The constructor -/

/-- The members of `struct output`, transition_tracer.h:142-153. -/
structure Output (K : Type) where
  legend : List (List Char)
  nlo : NLOStatus := .notSet
  ewsr : EWSR := .notSet
  tracing : Tracing := .notSet
  coex : CoexPair := .notSet
  num : Nat := 0
  store : Store K := {}
  history : List Char := "not_set".toList

/-- The inputs of the constructor and the results of the library calls in it. -/
structure TracerInput (K : Type) where
  nloCheck : Bool
  ewsrCheck : Int
  gwCalc : Bool
  which : Int
  vevNames : List (List Char)
  nlo : Bool
  ewsr : Int
  tracing : Tracing
  coex : CoexPair
  pairs : List (PairEnv K)

/-- `std::to_string(i)` appended to a column name. -/
def numbered (i : Nat) (name : String) : List Char := name.toList ++ natStr i

/-- The columns of one characteristic temperature, e.g. minimum_tracer.cpp:2825-2837. -/
def stageLegend (vev : List (List Char)) (i : Nat) (key : String) : List (List Char) :=
  [numbered i ("T_" ++ key ++ "_")] ++
  vev.map (fun v => v ++ numbered i ("_" ++ key ++ "_false_")) ++
  vev.map (fun v => v ++ numbered i ("_" ++ key ++ "_true_"))

/-- The columns for the gravitational waves, minimum_tracer.cpp:2874-2889. -/
def gwLegend (i : Nat) : List (List Char) :=
  ["status_gw_", "trans_temp_", "v_wall_", "alpha_PT_", "beta/H_", "K_sw_", "fpeak_sw_",
   "h2OmegaPeak_sw_", "SNR(LISA-3yrs)_sw_", "K_turb_", "fpeak_turb_", "h2OmegaPeak_turb_",
   "SNR(LISA-3yrs)_turb_", "SNR(LISA-3yrs)_"].map (numbered i)

/-- The columns of one pair, minimum_tracer.cpp:2811-2891. -/
def pairLegend (vev : List (List Char)) (gwCalc : Bool) (i : Nat) : List (List Char) :=
  [numbered i "status_crit_"] ++ stageLegend vev i "crit" ++
  [numbered i "status_bounce_sol_"] ++
  [numbered i "status_nucl_approx_"] ++ stageLegend vev i "nucl_approx" ++
  [numbered i "status_nucl_"] ++ stageLegend vev i "nucl" ++
  [numbered i "status_perc_"] ++ stageLegend vev i "perc" ++
  [numbered i "status_compl_"] ++ stageLegend vev i "compl" ++
  (if gwCalc then gwLegend i else [])

/-- The first columns, minimum_tracer.cpp:2805-2809. -/
def fixedLegend : List (List Char) :=
  ["status_nlo_stability".toList, "status_ewsr".toList, "status_tracing".toList,
   "status_coex_pairs".toList, "runtime".toList]

/-- `MinimumTracer::GetLegend`, minimum_tracer.cpp:2800-2896.  `vev` is `addLegendVEV()`. -/
def getLegend (vev : List (List Char)) (num : Nat) (gwCalc : Bool) : List (List Char) :=
  fixedLegend ++ (List.range num).flatMap (pairLegend vev gwCalc) ++ ["transition_history".toList]

section

variable {K : Type} [Field K] [LinearOrder K]

/-- The part of the constructor after the two checks, transition_tracer.cpp:81-478. -/
def traced (i : TracerInput K) (fuel : Nat) (o : Output K) : Option (Outcome (Output K)) :=
  let o := { o with num := i.pairs.length, tracing := i.tracing, coex := i.coex }
  if i.tracing = .success ∧ i.coex = .success then
    let st := pairLoop i.vevNames.length i.gwCalc i.which i.pairs
    (history st.data i.pairs fuel).map fun r => do
      let h ← r
      let text ← historyText h.1 h.2
      ok { o with legend := getLegend i.vevNames i.pairs.length i.gwCalc, store := st, history := text }
  else some (ok o)

/-- The constructor `TransitionTracer`, transition_tracer.cpp:15-486.  `none` when the search for the
history does not end within the fuel. -/
def transitionTracer (i : TracerInput K) (fuel : Nat) : Option (Outcome (Output K)) :=
  let o : Output K := { legend := getLegend i.vevNames 0 i.gwCalc }
  let o := { o with nlo := if i.nloCheck then getStatusNLOVEV i.nlo else .off }
  if o.nlo = .success ∨ o.nlo = .off then
    let d := ewsrDecision i.ewsrCheck i.ewsr
    let o := { o with ewsr := d.1 }
    if d.2 then some (ok o) else traced i fuel o
  else some (ok o)

end

/-! ## The table written by the programs -/

/-- `operator<<` for a vector, utility.h:96-113: the elements with a tab between them. -/
def joinTab : List (List Char) → List Char
  | [] => []
  | [a] => a
  | a :: b :: l => a ++ '\t' :: joinTab (b :: l)

/-- One field written with `<< field << sep`. -/
def cell (x : List Char) : List Char := x ++ ['\t']

section

variable {K : Type} (show' : Option K → List Char)

/-- A vector written with `<< vec << sep`. -/
def vecCell (v : List (Option K)) : List Char := cell (joinTab (v.map show'))

/-- A characteristic temperature in the row, e.g. CalcTemps.cpp:169-172. -/
def stageRow (s : Stage K) : List Char :=
  cell (show' s.temp) ++ vecCell show' s.falseVev ++ vecCell show' s.trueVev

/-- The gravitational wave fields, CalcGW.cpp:191-205. -/
def gwRow (g : GW K) : List Char :=
  cell g.status.name.toList ++ cell (show' g.transTemp) ++ cell (show' g.vwall) ++
  cell (show' g.alpha) ++ cell (show' g.betaH) ++ cell (show' g.kSw) ++ cell (show' g.fpeakSw) ++
  cell (show' g.h2Sw) ++ cell (show' g.snrSw) ++ cell (show' g.kTurb) ++ cell (show' g.fpeakTurb) ++
  cell (show' g.h2Turb) ++ cell (show' g.snrTurb) ++ cell (show' g.snr)

/-- They are written by `CalcGW` only, CalcGW.cpp:191-205. -/
def gwPart (gwCalc : Bool) (s : Store K) (i : Nat) : Outcome (List Char) :=
  if gwCalc then (at' s.gw i) >>= fun g => ok (gwRow show' g) else ok []

/-- The fields of one pair, CalcTemps.cpp:166-187 and CalcGW.cpp:170-205, with the `.at(i)` of the code. -/
def pairRow (gwCalc : Bool) (s : Store K) (i : Nat) : Outcome (List Char) := do
  let crit ← at' s.crit i
  let d ← at' s.data i
  let bounce ← at' s.bounce i
  let approx ← at' s.approx i
  let nucl ← at' s.nucl i
  let perc ← at' s.perc i
  let compl ← at' s.compl i
  let gw ← gwPart show' gwCalc s i
  ok (cell crit.name.toList ++ stageRow show' d.crit ++ cell bounce.name.toList ++
    cell approx.name.toList ++ stageRow show' d.approx ++
    cell nucl.name.toList ++ stageRow show' d.nucl ++
    cell perc.name.toList ++ stageRow show' d.perc ++
    cell compl.name.toList ++ stageRow show' d.compl ++ gw)

/-- One processed point: the input line, the derived parameters, the output and the run time. -/
structure Point (K : Type) where
  line : List Char
  params : List (List Char)
  out : Output K
  time : List Char

/-- The fields of all pairs, CalcTemps.cpp:160-189. -/
def pairsRow (gwCalc : Bool) (o : Output K) : Outcome (List Char) :=
  if o.tracing = .success ∧ o.coex = .success then
    (List.range o.num).mapM (pairRow show' gwCalc o.store) >>= fun l => ok l.flatten
  else ok []

/-- The row of a point before it is filled up, CalcTemps.cpp:153-189, CalcGW.cpp:157-208. -/
def pointRow (gwCalc : Bool) (p : Point K) : Outcome (List Char) := do
  let rest ← pairsRow show' gwCalc p.out
  ok (cell p.line ++ cell (joinTab p.params) ++ cell p.out.nlo.name.toList ++
    cell p.out.ewsr.name.toList ++ cell p.out.tracing.name.toList ++ cell p.out.coex.name.toList ++
    cell p.time ++ rest)

/-- The variables of `main` that live across points, CalcTemps.cpp:92-96. -/
structure Table where
  legend : List (List Char) := []
  rows : List (List Char) := []
  histories : List (List Char) := []

/-- What happens to them for one point, CalcTemps.cpp:99-196. -/
def tableStep (gwCalc : Bool) (t : Table) (p : Point K) : Outcome Table := do
  let row ← pointRow show' gwCalc p
  ok ⟨if t.legend.length < p.out.legend.length then p.out.legend else t.legend,
    t.rows ++ [row], t.histories ++ [p.out.history]⟩

/-- All points in order. -/
def table (gwCalc : Bool) (points : List (Point K)) : Outcome Table :=
  points.foldlM (tableStep show' gwCalc) {}

end

/-- The loops that count tabs, CalcTemps.cpp:212-232: one more than the number of tabs. -/
def tabCount (l : List Char) : Nat := l.count '\t' + 1

/-- The header line, CalcTemps.cpp:207-210. -/
def headerLine (input : List Char) (ct : List (List Char)) (t : Table) : List Char :=
  cell input ++ cell (joinTab ct) ++ joinTab t.legend

/-- One line of the body, CalcTemps.cpp:235-247 (`diff` is negative for a row that is too wide, which is
then left alone, as with the truncated subtraction here). -/
def bodyLine (header row history : List Char) : List Char :=
  row ++ (List.replicate (tabCount header - tabCount row) (cell "nan".toList)).flatten ++ history

/-- The lines of the file written after a point, CalcTemps.cpp:198-249. -/
def fileLines (input : List Char) (ct : List (List Char)) (t : Table) : List (List Char) :=
  headerLine input ct t :: List.zipWith (bodyLine (headerLine input ct t)) t.rows t.histories

end Verif.Transition
