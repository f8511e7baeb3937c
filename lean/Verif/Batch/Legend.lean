import Verif.Transition.Model
import Verif.Models.Model

/-!
# Headers and rows of the tables

The tables of `CalcCT`, `BSMPT`, `NLOVEV`, `TripleHiggsNLO`, `VEVEVO` and `CalculateEWBG`.  A number is given by the text that
`operator<<` makes of it.
-/

namespace Verif.Batch

open Models (Class)
open Transition (joinTab)

/-- `addLegendCT`: ClassPotentialSM.cpp:53-63, ClassPotentialCxSM.cpp:66-85, ClassPotentialR2HDM.cpp:59-74,
ClassPotentialC2HDM.cpp:69-88, ClassPotentialN2HDM.cpp:66-85, ClassPotentialCPintheDark.cpp:71-96, ClassTemplate.cpp:73-80. -/
def legendCT : Class → List String
  | .sm => ["dmuSq", "dlambda", "dT1", "dT2", "dT3", "dT4"]
  | .cxsm => ["dms", "dlambda", "ddelta2", "db2", "dd2", "dReb1", "dImb1", "dRea1", "dIma1", "dT1", "dT2", "dT3", "dT4", "dT5",
      "dT6"]
  | .r2hdm => ["Dm11sq", "Dm22sq", "Dm12sq", "DL1", "DL2", "DL3", "DL4", "DL5", "DT1", "DT2", "DT3"]
  | .c2hdm => ["Dm11sq", "Dm22sq", "Dim_m12sq", "Dre_m12sq", "DL1", "DL2", "DL3", "DL4", "Dre_L5", "Dim_L5", "DTCharged",
      "DT1", "DT2", "DT3", "Dim_L6"]
  | .n2hdm => ["Du11sq", "Du22sq", "Dm12sq", "DL1", "DL2", "DL3", "DL4", "DL5", "Dussq", "DL6", "DL7", "DL8", "DT1", "DT2",
      "DTs"]
  | .cpinthedark => ["dm11s", "dm22s", "dmSs", "dReA", "dImA", "dL1", "dL2", "dL3", "dL4", "dL5", "dL6", "dL7", "dL8", "dT1",
      "dT2", "dTCP", "dTCB", "dTS", "dImL5"]
  | .template => ["dT", "dlambda", "dmsquared"]

/-- The members that `set_CT_Pot_Par` sets, in the order of its argument, which is the result of `calc_CT`:
ClassPotentialSM.cpp:162-167, ClassPotentialCxSM.cpp:282-296, ClassPotentialR2HDM.cpp:303-314,
ClassPotentialC2HDM.cpp:304-318, ClassPotentialN2HDM.cpp:267-281, ClassPotentialCPintheDark.cpp:286-304,
ClassTemplate.cpp:203-205. -/
def setCT : Class → List String
  | .sm => ["dmuSq", "dlambda", "dT1", "dT2", "dT3", "dT4"]
  | .cxsm => ["dmsq", "dlambda", "ddelta2", "db2", "dd2", "dReb1", "dImb1", "dRea1", "dIma1", "dT1", "dT2", "dT3", "dT4",
      "dT5", "dT6"]
  | .r2hdm => ["Du1CT", "Du2CT", "DRu3CT", "DL1CT", "DL2CT", "DL3CT", "DL4CT", "DRL5CT", "DT1", "DT2", "DT3"]
  | .c2hdm => ["Du1CT", "Du2CT", "DIu3CT", "DRu3CT", "DL1CT", "DL2CT", "DL3CT", "DL4CT", "DRL5CT", "DIL5CT", "DTCharged",
      "DT1", "DT2", "DT3", "DIL6CT"]
  | .n2hdm => ["Du1CT", "Du2CT", "DRu3CT", "DL1CT", "DL2CT", "DL3CT", "DL4CT", "DRL5CT", "NDus", "NDL6", "NDL7", "NDL8",
      "DT1", "DT2", "NDTS"]
  | .cpinthedark => ["dm11s", "dm22s", "dmSs", "dReA", "dImA", "dL1", "dL2", "dL3", "dL4", "dL5", "dL6", "dL7", "dL8",
      "dTCB", "dT1", "dT2", "dTCP", "dTS", "dImL5"]
  | .template => ["dT", "dlambda", "dms"]

/-- `addLegendTemp`; `cb` is `IncludeChargeBreakingVEV`: ClassPotentialSM.cpp:65-73, ClassPotentialCxSM.cpp:92-102,
ClassPotentialR2HDM.cpp:81-93, ClassPotentialC2HDM.cpp:95-106, ClassPotentialN2HDM.cpp:92-105,
ClassPotentialCPintheDark.cpp:103-116, ClassTemplate.cpp:87-97. -/
def legendTemp (cb : Bool) : Class → List String
  | .sm => ["T_c", "v_c", "omega_c/T_c", "omega_c"]
  | .cxsm => ["T_c", "v_c", "omega_c/T_c", "omega_c", "omega_sc", "omega_ac"]
  | .r2hdm => ["T_c", "omega_c", "omega_c/T_c", "omega_CB(T_c)", "omega_1(T_c)", "omega_2(T_c)", "omega_CP(T_c)"]
  | .c2hdm => ["T_c", "omega_c", "omega_c/T_c"] ++ (if cb then ["omega_CB(T_c)"] else []) ++
      ["omega_1(T_c)", "omega_2(T_c)", "omega_CP(T_c)"]
  | .n2hdm => ["T_c", "omega_c", "omega_c/T_c", "omega_{CB}(T_c)", "omega_{CP}(T_c)", "omega_1(T_c)", "omega_2(T_c)",
      "omega_s(T_c)"]
  | .cpinthedark => ["T_c", "v_c", "v_c/T_c", "omega_{CB}(T_c)", "omega_1(T_c)", "omega_2(T_c)", "omega_{CP}(T_c)",
      "omega_S(T_c)"]
  | .template => ["T_c", "v_c", "v_c/T_c", "omega"]

/-- `addLegendVEV`: ClassPotentialSM.cpp:105-110, ClassPotentialCxSM.cpp:146-153, ClassPotentialR2HDM.cpp:99-107,
ClassPotentialC2HDM.cpp:160-168, ClassPotentialN2HDM.cpp:151-160, ClassPotentialCPintheDark.cpp:163-173,
ClassTemplate.cpp:137-143. -/
def legendVEV (cb : Bool) : Class → List String
  | .sm => ["omega"]
  | .cxsm => ["omega", "omega_s", "omega_a"]
  | .r2hdm => ["omega_CB", "omega_1", "omega_2", "omega_CP"]
  | .c2hdm => (if cb then ["omega_CB"] else []) ++ ["omega_1", "omega_2", "omega_CP"]
  | .n2hdm => ["omega_{CB}", "omega_{CP}", "omega_1", "omega_2", "omega_s"]
  | .cpinthedark => ["omega_{CB}", "omega_1", "omega_2", "omega_{CP}", "omega_S"]
  | .template => ["omega"]

/-- The particles of `addLegendTripleCouplings`; `hsm` is `UseHsmNotationInTripleHiggs`: ClassPotentialSM.cpp:81-84,
ClassPotentialCxSM.cpp:116-120, ClassPotentialR2HDM.cpp:119-126, ClassPotentialC2HDM.cpp:119-135,
ClassPotentialN2HDM.cpp:118-126, ClassPotentialCPintheDark.cpp:129-137, ClassTemplate.cpp:111. -/
def particles (hsm : Bool) : Class → List String
  | .sm => ["G+", "G-", "G0", "H"]
  | .cxsm => ["G+", "G-", "G0", "H1", "H2", "H3"]
  | .r2hdm => ["G^+", "G^-", "H^+", "H^-", "G^0", "A", "h", "H"]
  | .c2hdm => ["G^+", "G^-", "H^+", "H^-", "G^0"] ++ (if hsm then ["h_SM", "h_l", "h_H"] else ["h_1", "h_2", "h_3"])
  | .n2hdm => ["G^+", "G^-", "H^+", "H^-", "G^0", "A", "h_SM", "h_l", "h_H"]
  | .cpinthedark => ["G^+", "G^-", "H^+", "H^-", "h", "G^0", "h_1", "h_2", "h_3"]
  | .template => ["H"]

/-- The three nested loops over `i`, `j = i, …` and `k = j, …`, e.g. ClassPotentialSM.cpp:86-90 and
TripleHiggsNLO.cpp:119-123. -/
def triples (n : Nat) : List (Nat × Nat × Nat) :=
  (List.range n).flatMap fun i => (List.range' i (n - i)).flatMap fun j => (List.range' j (n - j)).map fun k => (i, j, k)

/-- `addLegendTripleCouplings`, e.g. ClassPotentialSM.cpp:86-100.  The indices are smaller than `NHiggs`, the number of
names. -/
def legendTriple (names : List String) : List String :=
  (triples names.length).flatMap fun t =>
    let s := names.getD t.1 "" ++ names.getD t.2.1 "" ++ names.getD t.2.2 ""
    ["Tree_" ++ s, "CT_" ++ s, "CW_" ++ s]

/-- `for (auto x : l) outfile << sep << x`. -/
def sepEach (l : List (List Char)) : List Char := l.flatMap fun x => '\t' :: x

/-- `outfile << sep << l`. -/
def sepVec (l : List (List Char)) : List Char := '\t' :: joinTab l

def chars (l : List String) : List (List Char) := l.map String.toList

/-! ## The programs -/

/-- CalcCT.cpp:86-88. -/
def calcCTHeader (c : Class) (line : List Char) : List Char := line ++ sepVec (chars (legendCT c))

/-- CalcCT.cpp:96. -/
def calcCTRow (line : List Char) (ct : List (List Char)) : List Char := line ++ sepVec ct

/-- What the programs write about a point: the counterterms, the critical temperature and vacuum expectation value, their
ratio, the status flag, the minimum of the potential, its distance from the origin and the value of the potential there. -/
structure Point where
  ct : List (List Char)
  tc : List Char
  vc : List Char
  ratio : List Char
  status : List Char
  strong : Bool
  minimum : List (List Char)
  vev : List Char
  temp : List Char
  veff : List Char

/-- BSMPT.cpp:99-100. -/
def bsmptHeader (cb : Bool) (c : Class) (line : List Char) : List Char :=
  line ++ sepVec (chars (legendCT c)) ++ sepVec (chars (legendTemp cb c))

/-- BSMPT.cpp:200-209, with `PrintErrorLines`; `strong` says that the transition was found and is strong. -/
def bsmptRow (line : List Char) (p : Point) : List Char :=
  line ++ sepVec p.ct ++ ('\t' :: p.tc) ++ ('\t' :: p.vc) ++ ('\t' :: if p.strong then p.ratio else p.status) ++
    sepVec p.minimum

/-- NLOVEV.cpp:91-99. -/
def nlovevHeader (cb : Bool) (c : Class) (line : List Char) : List Char :=
  line ++ sepEach (chars (legendCT c)) ++ sepEach (chars (legendVEV cb c)) ++ ('\t' :: "v_NLO".toList)

/-- NLOVEV.cpp:120-122. -/
def nlovevRow (line : List Char) (p : Point) : List Char :=
  line ++ sepVec p.ct ++ sepVec p.minimum ++ ('\t' :: p.vev)

/-- VEVEVO.cpp:115-116. -/
def vevevoHeader (cb : Bool) (c : Class) : List Char :=
  "T".toList ++ ('\t' :: "v".toList) ++ sepVec (chars (legendVEV cb c)) ++ ('\t' :: "Veff(v,T)".toList)

/-- VEVEVO.cpp:142-146. -/
def vevevoRow (p : Point) : List Char :=
  p.temp ++ ('\t' :: p.vev) ++ sepVec p.minimum ++ ('\t' :: p.veff)

/-- TripleHiggsNLO.cpp:93-98. -/
def tripleHeader (hsm : Bool) (c : Class) (line : List Char) : List Char :=
  line ++ sepEach (chars (legendCT c)) ++ sepEach (chars (legendTriple (particles hsm c)))

/-- TripleHiggsNLO.cpp:116-137, with the three couplings of the fields `i`, `j`, `k`. -/
def tripleRow (line : List Char) (ct : List (List Char)) (n : Nat) (tree cterm cw : Nat → Nat → Nat → List Char) : List Char :=
  line ++ sepEach ct ++ sepEach ((triples n).flatMap fun t =>
    [tree t.1 t.2.1 t.2.2, cterm t.1 t.2.1 t.2.2, cw t.1 t.2.1 t.2.2])

/-- What `CalculateEWBG` adds: wall velocity and thickness, the six phases and the asymmetries. -/
structure Wall where
  vw : List Char
  lw : List Char
  topSym : List Char
  topBrk : List Char
  botSym : List Char
  botBrk : List Char
  tauSym : List Char
  tauBrk : List Char
  eta : List (List Char)

/-- CalculateEWBG.cpp:103-117. -/
def ewbgHeader (cb : Bool) (c : Class) (eta : List String) (line : List Char) : List Char :=
  line ++ sepEach (chars ((legendCT c).map (· ++ "_EWBG"))) ++ sepEach (chars ((legendTemp cb c).map (· ++ "_EWBG"))) ++
    sepEach (chars ["vw", "L_W", "top_sym_phase", "top_brk_phase", "bot_sym_phase", "bot_brk_phase", "tau_sym_phase",
      "tau_brk_phase"]) ++ sepVec (chars eta)

/-- CalculateEWBG.cpp:170-184, after a strong transition has been found. -/
def ewbgRow (line : List Char) (p : Point) (w : Wall) : List Char :=
  line ++ sepVec p.ct ++ ('\t' :: p.tc) ++ ('\t' :: p.vc) ++ ('\t' :: p.ratio) ++ sepVec p.minimum ++
    sepEach [w.vw, w.lw, w.topSym, w.topBrk, w.botSym, w.botBrk, w.tauSym, w.tauBrk] ++ sepVec w.eta

/-- CalculateEWBG.cpp:188-203, without a strong transition; `n` is the number of asymmetries. -/
def ewbgErrorRow (line : List Char) (p : Point) (vw : List Char) (n : Nat) : List Char :=
  line ++ sepVec p.ct ++ ('\t' :: p.tc) ++ ('\t' :: p.vc) ++ sepVec p.minimum ++ ('\t' :: p.ratio) ++
    sepEach [vw, "-1".toList, "-50".toList, "-50".toList, "-50".toList, "-50".toList, "-50".toList, "-50".toList] ++
    sepEach (List.replicate n "0".toList)

end Verif.Batch
