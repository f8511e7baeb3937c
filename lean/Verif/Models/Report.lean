import Verif.Outcome
import Verif.Flt
import Mathlib.Algebra.Order.Field.Basic
import Mathlib.Algebra.Order.AbsoluteValue.Basic

/-!
# The spectrum printed by `write` (`ClassPotentialR2HDM.cpp`, `ClassPotentialN2HDM.cpp`,
`ClassPotentialC2HDM.cpp`, `ClassPotentialCxSM.cpp`, `ClassPotentialCPintheDark.cpp`)

Every executable prints, in terminal mode, the masses of the Higgs bosons under their names and
the composition of the neutral ones.  The names are found by looking for the rows of the rotation
matrix with an entry above a threshold.

Simplifications: the numbers are an ordered field, without rounding; the rotation matrix is a
function of row and column, the squared masses a function of the row (both have `NHiggs` rows);
`std::sqrt` is the parameter `root`.  Of the text only the printed values, their order and their
signs are kept.
-/

set_option linter.unusedVariables false

namespace Verif.Models.Report

open Outcome

variable {K : Type} [Field K] [LinearOrder K]

/-- `ZeroThreshold = 1e-5` (ClassPotentialR2HDM.cpp:576, ClassPotentialN2HDM.cpp:498,
ClassPotentialC2HDM.cpp:2147, ClassPotentialCxSM.cpp:466, ClassPotentialCPintheDark.cpp:1178) -/
def zeroThreshold : K := 1 / 100000

/-- `testsum > ZeroThreshold` for the sum of the moduli of the entries of row `i` in the columns
`cols` (ClassPotentialR2HDM.cpp:579-580, ClassPotentialN2HDM.cpp:504-506) -/
def present (R : Nat → Nat → K) (cols : List Nat) (i : Nat) : Bool :=
  decide ((cols.map fun j => |R i j|).sum > zeroThreshold)

/-- a position that starts at 0 and is overwritten by every row found
(`if (testsum > ZeroThreshold) posA = i;`, ClassPotentialR2HDM.cpp:580, 584, 589, 599) -/
def lastRow (p : Nat → Bool) (rows : List Nat) : Nat :=
  rows.foldl (fun pos i => if p i then i else pos) 0

/-- the rows `0, 1, 2` of the Goldstone bosons (ClassPotentialR2HDM.cpp:577,
ClassPotentialC2HDM.cpp:2148, ClassPotentialCxSM.cpp:467) -/
def goldstoneRows : List Nat := List.range 3

/-- the rows `3 … NHiggs-1` (ClassPotentialR2HDM.cpp:586, ClassPotentialN2HDM.cpp:500,
ClassPotentialC2HDM.cpp:2157) -/
def physicalRows (nHiggs : Nat) : List Nat := (List.range nHiggs).drop 3

/-- `posN[countposN] = i; countposN++;` into an array of `n` entries: writing past its end is
undefined (ClassPotentialR2HDM.cpp:592-597, ClassPotentialN2HDM.cpp:504-510,
ClassPotentialC2HDM.cpp:2163-2170) -/
def fillStep (n : Nat) (p : Nat → Bool) (posN : Outcome (List Nat)) (i : Nat) :
    Outcome (List Nat) :=
  posN.bind fun l => if p i then (if l.length < n then ok (l ++ [i]) else ub .outOfBounds) else ok l

/-- the whole loop -/
def fillRows (n : Nat) (p : Nat → Bool) (rows : List Nat) : Outcome (List Nat) :=
  rows.foldl (fillStep n p) (ok [])

/-- reading `posN[k]`: an entry that was never written is uninitialised
(ClassPotentialR2HDM.cpp:609-610, ClassPotentialN2HDM.cpp:522, ClassPotentialC2HDM.cpp:2179) -/
def readRow (posN : List Nat) (k : Nat) : Outcome Nat :=
  match posN[k]? with
  | some i => ok i
  | none => ub .uninitialised

/-- a coefficient after the first one: its sign is printed before its modulus
(ClassPotentialR2HDM.cpp:615-620) -/
def signed (x : K) : Char × K := (if x < 0 then '-' else '+', |x|)

/-- a printed line `name = c0 f0 ±|c1| f1 ±|c2| f2` -/
def composition : List K → List (Char × K)
  | [] => []
  | c :: cs => (' ', c) :: cs.map signed

/-- what `Class_Potential_R2HDM::write` prints (ClassPotentialR2HDM.cpp:605-627) -/
structure R2Report (K : Type) where
  /-- `m_{G^+}^2` -/
  gPlusSq : K
  /-- `m_{G^0}^2` -/
  g0Sq : K
  /-- `m_{H^+}` -/
  hPlus : Flt K
  /-- `m_h` -/
  light : Flt K
  /-- `m_H` -/
  heavy : Flt K
  /-- `m_A` -/
  odd : Flt K
  /-- the line `h = …` -/
  lightMix : List (Char × K)
  /-- the line `H = …` -/
  heavyMix : List (Char × K)

/-- `Class_Potential_R2HDM::write` (ClassPotentialR2HDM.cpp:561-627) -/
def writeR2 (root : K → Flt K) (R : Nat → Nat → K) (m : Nat → K) : Outcome (R2Report K) := do
  let posG1 := lastRow (present R [0, 2]) goldstoneRows
  let posG0 := lastRow (present R [5, 7]) goldstoneRows
  let posMHCS1 := lastRow (present R [0, 2]) (physicalRows 8)
  let posN ← fillRows 2 (present R [4, 6]) (physicalRows 8)
  let posA := lastRow (present R [5, 7]) (physicalRows 8)
  let n0 ← readRow posN 0
  let n1 ← readRow posN 1
  ok {
    gPlusSq := m posG1
    g0Sq := m posG0
    hPlus := root (m posMHCS1)
    light := root (m n0)
    heavy := root (m n1)
    odd := root (m posA)
    lightMix := composition [R n0 4, R n0 6]
    heavyMix := composition [R n1 4, R n1 6] }

/-- one iteration of the search for the SM-like boson: the last neutral boson between 124 and 126
(ClassPotentialN2HDM.cpp:524-528, ClassPotentialC2HDM.cpp:2181-2185,
ClassPotentialCxSM.cpp:487-491) -/
def smStep (msm x : Flt K) : Flt K :=
  if Flt.lt x (.fin 126) && Flt.gt x (.fin 124) then x else msm

/-- `MSM` -/
def smMass (a b c : Flt K) : Flt K := [a, b, c].foldl smStep (.fin 0)

/-- `MhUp` and `MhDown` (ClassPotentialN2HDM.cpp:529-543, ClassPotentialC2HDM.cpp:2186-2200,
ClassPotentialCxSM.cpp:492-506) -/
def otherMasses (msm a b c : Flt K) : Flt K × Flt K :=
  if !Flt.ne a msm then (c, b)
  else if !Flt.ne b msm then (c, a)
  else (b, a)

/-- the rows of the bosons `H_SM`, `H_l`, `H_h`: `posN` after the two exchanges
(ClassPotentialN2HDM.cpp:545-556, ClassPotentialC2HDM.cpp:2202-2213,
ClassPotentialCxSM.cpp:508-519) -/
def sortRows (msm up down : Flt K) (n : Nat × Nat × Nat) : Nat × Nat × Nat :=
  let n := if Flt.gt msm up then (n.1, n.2.2, n.2.1) else n
  if Flt.gt msm down then (n.2.1, n.1, n.2.2) else n

/-- the named neutral bosons: mass and row of `H_SM`, `H_l`, `H_h` -/
structure Named (K : Type) where
  sm : Flt K
  down : Flt K
  up : Flt K
  rows : Nat × Nat × Nat

/-- the naming of three neutral bosons at the rows `n` (ClassPotentialN2HDM.cpp:518-556,
ClassPotentialC2HDM.cpp:2176-2213, ClassPotentialCxSM.cpp:481-519) -/
def nameThree (root : K → Flt K) (m : Nat → K) (n : Nat × Nat × Nat) : Named K :=
  let a := root (m n.1)
  let b := root (m n.2.1)
  let c := root (m n.2.2)
  let msm := smMass a b c
  let ud := otherMasses msm a b c
  { sm := msm, down := ud.2, up := ud.1, rows := sortRows msm ud.1 ud.2 n }

/-- what the `write` of a model with three mixing neutral bosons prints -/
structure ThreeReport (K : Type) where
  /-- `m_{H_SM}` -/
  sm : Flt K
  /-- `m_{H_l}` -/
  down : Flt K
  /-- `m_{H_h}` -/
  up : Flt K
  /-- the line `H_{SM} = …` -/
  smMix : List (Char × K)
  /-- the line `H_{l} = …` -/
  downMix : List (Char × K)
  /-- the line `H_{h} = …` -/
  upMix : List (Char × K)

/-- the printed block, with the coefficients `mix row` of a row -/
def threeReport (mix : Nat → List K) (n : Named K) : ThreeReport K :=
  { sm := n.sm
    down := n.down
    up := n.up
    smMix := composition (mix n.rows.1)
    downMix := composition (mix n.rows.2.1)
    upMix := composition (mix n.rows.2.2) }

/-- what `Class_Potential_N2HDM::write` prints -/
structure N2Report (K : Type) where
  /-- `m_{H^+}` -/
  hPlus : Flt K
  /-- `m_A` -/
  odd : Flt K
  neutral : ThreeReport K

/-- `Class_Potential_N2HDM::write` (ClassPotentialN2HDM.cpp:483-612) -/
def writeN2 (root : K → Flt K) (R : Nat → Nat → K) (m : Nat → K) : Outcome (N2Report K) := do
  let posMHCS1 := lastRow (present R [0, 1]) (physicalRows 9)
  let posN ← fillRows 3 (present R [6, 7, 8]) (physicalRows 9)
  let posA := lastRow (present R [4, 5]) (physicalRows 9)
  let n0 ← readRow posN 0
  let n1 ← readRow posN 1
  let n2 ← readRow posN 2
  ok {
    hPlus := root (m posMHCS1)
    odd := root (m posA)
    neutral := threeReport (fun i => [R i 6, R i 7, R i 8]) (nameThree root m (n0, n1, n2)) }

/-- what `Class_Potential_C2HDM::write` prints -/
structure C2Report (K : Type) where
  /-- `m_{H^+}` -/
  hPlus : Flt K
  neutral : ThreeReport K

/-- the coefficients of `zeta_1`, `zeta_2`, `zeta_3` in a row (ClassPotentialC2HDM.cpp:2215-2231) -/
def mixC2 (sinB cosB : K) (R : Nat → Nat → K) (i : Nat) : List K :=
  [R i 4, R i 6, -sinB * R i 5 + cosB * R i 7]

/-- `Class_Potential_C2HDM::write` (ClassPotentialC2HDM.cpp:2131-2278): the spectrum is printed
only after the couplings were calculated -/
def writeC2 (done : Bool) (root : K → Flt K) (sinB cosB : K) (R : Nat → Nat → K) (m : Nat → K) :
    Outcome (Option (C2Report K)) :=
  if done then do
    let posMHCS1 := lastRow (present R [0, 2]) (physicalRows 8)
    let posN ← fillRows 3 (present R [4, 5, 6, 7]) (physicalRows 8)
    let n0 ← readRow posN 0
    let n1 ← readRow posN 1
    let n2 ← readRow posN 2
    ok (some {
      hPlus := root (m posMHCS1)
      neutral := threeReport (mixC2 sinB cosB R) (nameThree root m (n0, n1, n2)) })
  else ok none

/-- what `Class_CxSM::write` prints -/
structure CxReport (K : Type) where
  /-- `m_{G^+}^2` -/
  gPlusSq : K
  /-- `m_{G^0}^2` -/
  g0Sq : K
  neutral : ThreeReport K

/-- `posGCharged`: a row is taken only while the position is still 0 (ClassPotentialCxSM.cpp:464-473) -/
def chargedRow (p : Nat → Bool) (rows : List Nat) : Nat :=
  rows.foldl (fun pos i => if p i && pos == 0 then i else pos) 0

/-- `Class_CxSM::write` (ClassPotentialCxSM.cpp:460-573) -/
def writeCx (root : K → Flt K) (R : Nat → Nat → K) (m : Nat → K) : CxReport K :=
  { gPlusSq := m (chargedRow (present R [0, 1]) goldstoneRows)
    g0Sq := m (lastRow (present R [2]) goldstoneRows)
    neutral := threeReport (fun i => [R i 3, R i 4, R i 5]) (nameThree root m (3, 4, 5)) }

/-- the rows of `Class_Potential_CPintheDark::write` (ClassPotentialCPintheDark.cpp:1180-1188) -/
structure DarkRows where
  gp : Nat := 0
  gm : Nat := 0
  hp : Nat := 0
  hm : Nat := 0
  hsm : Nat := 0
  g0 : Nat := 0
  h1 : Nat := 0
  h2 : Nat := 0
  h3 : Nat := 0
  deriving DecidableEq, Repr

/-- the visible states: the first of the columns `0 … 5` present in the row
(ClassPotentialCPintheDark.cpp:1193-1204) -/
def visibleStep (R : Nat → Nat → K) (s : DarkRows) (i : Nat) : DarkRows :=
  if present R [0] i then { s with gp := i }
  else if present R [1] i then { s with gm := i }
  else if present R [2] i then { s with hp := i }
  else if present R [3] i then { s with hm := i }
  else if present R [4] i then { s with hsm := i }
  else if present R [5] i then { s with g0 := i }
  else s

/-- the dark states (ClassPotentialCPintheDark.cpp:1207-1227) -/
def darkStep (R : Nat → Nat → K) (s : DarkRows) (i : Nat) : DarkRows :=
  if present R [6, 7, 8] i then
    if s.h1 == 0 then { s with h1 := i }
    else if s.h2 == 0 then { s with h2 := i }
    else { s with h3 := i }
  else s

/-- the loop over the rows (ClassPotentialCPintheDark.cpp:1190-1228) -/
def darkRows (R : Nat → Nat → K) : DarkRows :=
  (List.range 9).foldl (fun s i => darkStep R (visibleStep R s i) i) {}

/-- `Class_Potential_CPintheDark::write`: the nine masses in the order they are printed
(ClassPotentialCPintheDark.cpp:1230-1242) -/
def writeDark (root : K → Flt K) (R : Nat → Nat → K) (m : Nat → K) : List (Flt K) :=
  let s := darkRows R
  [root (m s.gp), root (m s.gm), root (m s.hp), root (m s.hm), root (m s.hsm), root (m s.g0),
    root (m s.h1), root (m s.h2), root (m s.h3)]

end Verif.Models.Report
