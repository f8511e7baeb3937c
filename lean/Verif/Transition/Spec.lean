import Verif.Transition.Model

/-!
# Specification for the transition history and the output tables
-/

namespace Verif.Transition

open Verif.Tracer

section

variable {K : Type}

/-- A bounce solution is looked for only if the pair has a critical temperature or if the phase reached
is the lower one in the whole common range. -/
def HasBounce (e : PairEnv K) : Prop := e.critStatus = .success ∨ e.critStatus = .trueLower

instance (e : PairEnv K) : Decidable (HasBounce e) := inferInstanceAs (Decidable (_ ∨ _))

/-- The temperatures of a pair are calculated only with a bounce solution. -/
def HasTemps (e : PairEnv K) : Prop := HasBounce e ∧ e.bounce = .success

instance (e : PairEnv K) : Decidable (HasTemps e) := inferInstanceAs (Decidable (_ ∧ _))

/-- What has to be stored for a temperature whose calculation gives `r`: status, value, VEVs. -/
def StageStored (n : Nat) (e : PairEnv K) (r : TempStatus × Option K) (st : TempStatus) (s : Stage K) :
    Prop :=
  (HasTemps e → st = r.1) ∧ (¬ HasTemps e → st = .nan) ∧
  (HasTemps e ∧ r.1 = .success → s.temp = r.2 ∧ s.falseVev = e.falseVev r.2 ∧ s.trueVev = e.trueVev r.2) ∧
  (¬ (HasTemps e ∧ r.1 = .success) →
    s.temp = none ∧ s.falseVev = List.replicate n none ∧ s.trueVev = List.replicate n none)

/-- The pair has completed at temperature `t`, leading from phase `a` to phase `b`. -/
def Completed (data : List (Trans K)) (e : PairEnv K) (a b : Nat) (t : K) : Prop :=
  e.falseId = a ∧ e.trueId = b ∧ ∃ d, data[e.pairId]? = some d ∧ d.compl.temp = some t

/-- The pair with number `p` leads from phase `a` to phase `b`, and no transition that starts in phase `a`
completes at a higher temperature. -/
def BestStep [LT K] (data : List (Trans K)) (l : List (PairEnv K)) (a p b : Nat) : Prop :=
  ∃ e ∈ l, ∃ t, e.pairId = p ∧ Completed data e a b t ∧
    ∀ e' ∈ l, ∀ b' t', Completed data e' a b' t' → ¬ t < t'

/-- No transition that starts in phase `a` completes. -/
def Final (data : List (Trans K)) (l : List (PairEnv K)) (a : Nat) : Prop :=
  ∀ e ∈ l, ∀ b t, ¬ Completed data e a b t

end

/-- The columns of a line of a tab-separated file. -/
def columns : List Char → List (List Char)
  | [] => [[]]
  | c :: l =>
    if c = '\t' then [] :: columns l
    else match columns l with
      | [] => [[c]]
      | x :: xs => (c :: x) :: xs

/-- The names of the two columns groups and the temperature column of `key` for pair `i`, with their values. -/
def stageCols {K : Type} (show' : Option K → List Char) (vev : List (List Char)) (i : Nat) (key : String)
    (s : Stage K) : List (List Char × List Char) :=
  [("T_".toList ++ key.toList ++ "_".toList ++ natStr i, show' s.temp)] ++
  List.zip (vev.map fun v => v ++ "_".toList ++ key.toList ++ "_false_".toList ++ natStr i)
    (s.falseVev.map show') ++
  List.zip (vev.map fun v => v ++ "_".toList ++ key.toList ++ "_true_".toList ++ natStr i)
    (s.trueVev.map show')

/-- The columns of the gravitational waves of pair `i`, with their values. -/
def gwCols {K : Type} (show' : Option K → List Char) (i : Nat) (g : GW K) :
    List (List Char × List Char) :=
  [("status_gw_", g.status.name.toList), ("trans_temp_", show' g.transTemp), ("v_wall_", show' g.vwall),
   ("alpha_PT_", show' g.alpha), ("beta/H_", show' g.betaH), ("K_sw_", show' g.kSw),
   ("fpeak_sw_", show' g.fpeakSw), ("h2OmegaPeak_sw_", show' g.h2Sw), ("SNR(LISA-3yrs)_sw_", show' g.snrSw),
   ("K_turb_", show' g.kTurb), ("fpeak_turb_", show' g.fpeakTurb), ("h2OmegaPeak_turb_", show' g.h2Turb),
   ("SNR(LISA-3yrs)_turb_", show' g.snrTurb), ("SNR(LISA-3yrs)_", show' g.snr)].map
    fun x : String × List Char => (x.1.toList ++ natStr i, x.2)

/-- Everything that is known about one pair. -/
structure PairInfo (K : Type) where
  crit : Crit
  bounce : GWStatus
  approx : TempStatus
  nucl : TempStatus
  perc : TempStatus
  compl : TempStatus
  data : Trans K
  gw : GW K

/-- All columns of pair `i`, with their values. -/
def pairCols {K : Type} (show' : Option K → List Char) (vev : List (List Char)) (gwCalc : Bool) (i : Nat)
    (x : PairInfo K) : List (List Char × List Char) :=
  [("status_crit_".toList ++ natStr i, x.crit.name.toList)] ++
  stageCols show' vev i "crit" x.data.crit ++
  [("status_bounce_sol_".toList ++ natStr i, x.bounce.name.toList)] ++
  [("status_nucl_approx_".toList ++ natStr i, x.approx.name.toList)] ++
  stageCols show' vev i "nucl_approx" x.data.approx ++
  [("status_nucl_".toList ++ natStr i, x.nucl.name.toList)] ++
  stageCols show' vev i "nucl" x.data.nucl ++
  [("status_perc_".toList ++ natStr i, x.perc.name.toList)] ++
  stageCols show' vev i "perc" x.data.perc ++
  [("status_compl_".toList ++ natStr i, x.compl.name.toList)] ++
  stageCols show' vev i "compl" x.data.compl ++
  (if gwCalc then gwCols show' i x.gw else [])

end Verif.Transition
