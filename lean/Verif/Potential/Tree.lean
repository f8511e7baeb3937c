import Verif.Flt
import Verif.Models.Model
import Mathlib.Algebra.BigOperators.Fin
import Mathlib.Algebra.Field.Defs
import Mathlib.Algebra.Order.Ring.Abs

/-!
# Tree-level part of `Class_Potential_Origin`

`VTree`, `CounterTerm`, `NablaVCT`, `HessianCT`, `HiggsMassMatrix`, the tensor symmetrisation and
`VEff`.  Doubles are elements of a field `K` without rounding.  The tensors of `NHiggs = n` fields
are functions of indices below `n`; a loop that only adds to an accumulator is a sum.
-/

namespace Verif.Potential

open Verif Outcome

variable {K : Type} [Field K] [DecidableEq K] {n : Nat}

/-- A field vector of the right length. -/
abbrev FVec (n : Nat) (K : Type) := Fin n → K

/-- `Curvature_Higgs_L1 … L4` (or `Curvature_Higgs_CT_L1 … CT_L4`), ClassPotentialOrigin.h. -/
structure Curv (n : Nat) (K : Type) where
  L1 : Fin n → K
  L2 : Fin n → Fin n → K
  L3 : Fin n → Fin n → Fin n → K
  L4 : Fin n → Fin n → Fin n → Fin n → K

/-- The loops of `VTree` for `diff == 0`, ClassPotentialOrigin.cpp:2844-2870. -/
def vTree0 (c : Curv n K) (v : FVec n K) : K :=
  ∑ i, if v i ≠ 0 then
    c.L1 i * v i + ∑ j, if v j ≠ 0 then
      1 / 2 * c.L2 i j * v i * v j + ∑ k,
        (1 / 6 * c.L3 i j k * v i * v j * v k + ∑ l,
          1 / 24 * c.L4 i j k l * v i * v j * v k * v l)
    else 0
  else 0

/-- The loops of `VTree` for a derivative, ClassPotentialOrigin.cpp:2871-2887; the loops of
`CounterTerm` (2929-2946) and of `NablaVCT` (3986-4007) are the same with the counterterm
tensors. -/
def grad (c : Curv n K) (v : FVec n K) (i : Fin n) : K :=
  c.L1 i + ∑ j,
    (c.L2 i j * v j + ∑ k,
      (1 / 2 * c.L3 i j k * v j * v k + ∑ l,
        1 / 6 * c.L4 i j k l * v j * v k * v l))

/-- The loops of `CounterTerm` for `diff == 0`, ClassPotentialOrigin.cpp:2905-2928. -/
def counter0 (c : Curv n K) (v : FVec n K) : K :=
  ∑ i, (c.L1 i * v i + ∑ j,
    (1 / 2 * c.L2 i j * v i * v j + ∑ k,
      (1 / 6 * c.L3 i j k * v i * v j * v k + ∑ l,
        1 / 24 * c.L4 i j k l * v i * v j * v k * v l)))

/-- `static_cast<size_t>(diff) - 1` as an index, if `0 < diff <= NHiggs`. -/
def fieldIndex (n : Nat) (diff : Int) : Option (Fin n) :=
  if h : 0 < diff ∧ diff ≤ n then some ⟨(diff - 1).toNat, by omega⟩ else none

/-- `Class_Potential_Origin::VTree`, ClassPotentialOrigin.cpp:2826-2890.  `useSimplified` and
`simplified` stand for the model's `UseVTreeSimplified` and `VTreeSimplified`. -/
def vTree (useSimplified : Bool) (simplified : FVec n K → K) (c : Curv n K) (v : FVec n K)
    (diff : Int) (force : Bool) : K :=
  if !force && useSimplified && diff == 0 then simplified v
  else if diff = 0 then vTree0 c v
  else match fieldIndex n diff with
    | some i => grad c v i
    | none => 0

/-- `Class_Potential_Origin::CounterTerm`, ClassPotentialOrigin.cpp:2892-2946. -/
def counterTerm (useSimplified : Bool) (simplified : FVec n K → K) (c : Curv n K) (v : FVec n K)
    (diff : Int) (force : Bool) : K :=
  if !force && useSimplified && diff == 0 then simplified v
  else if diff = 0 then counter0 c v
  else match fieldIndex n diff with
    | some i => grad c v i
    | none => 0

/-- `Class_Potential_Origin::NablaVCT`, ClassPotentialOrigin.cpp:3985-4007. -/
def nablaVCT (c : Curv n K) (v : FVec n K) (i : Fin n) : K := grad c v i

/-- `Class_Potential_Origin::HessianCT`, ClassPotentialOrigin.cpp:4009-4030. -/
def hessianCT (c : Curv n K) (v : FVec n K) (i j : Fin n) : K :=
  c.L2 i j + ∑ k, (c.L3 i j k * v k + ∑ l, 1 / 2 * c.L4 i j k l * v k * v l)

/-- The entries with `j >= i` that `HiggsMassMatrix` calculates for `diff == 0`,
ClassPotentialOrigin.cpp:2362-2383. -/
def massUpper (c : Curv n K) (debye : Fin n → Fin n → K) (v : FVec n K) (T : K) (i j : Fin n) : K :=
  (c.L2 i j + ∑ k, (c.L3 i j k * v k + ∑ l, 1 / 2 * c.L4 i j k l * v k * v l)) +
    (if T ≠ 0 then debye i j * T ^ 2 else 0)

/-- `HiggsMassMatrix` for `diff == 0` after the lower triangle has been copied from the upper one,
ClassPotentialOrigin.cpp:2384-2391. -/
def mass0 (c : Curv n K) (debye : Fin n → Fin n → K) (v : FVec n K) (T : K) (i j : Fin n) : K :=
  if i ≤ j then massUpper c debye v T i j else massUpper c debye v T j i

/-- `HiggsMassMatrix` for `0 < diff <= NHiggs`, ClassPotentialOrigin.cpp:2392-2406; the matrix
`Diff` of `HiggsMassesSquared` (2463-2476) has the same entries. -/
def massD (c : Curv n K) (v : FVec n K) (x : Fin n) (i j : Fin n) : K :=
  c.L3 i j x + ∑ k, c.L4 i j x k * v k

/-- `HiggsMassMatrix` for `diff == -1`, ClassPotentialOrigin.cpp:2407-2418; the matrix `Diff` of
`HiggsMassesSquared` (2486-2493) has the same entries. -/
def massT (debye : Fin n → Fin n → K) (T : K) (i j : Fin n) : K := 2 * debye i j * T

/-- `Class_Potential_Origin::HiggsMassMatrix`, ClassPotentialOrigin.cpp:2324-2418, for a vector of
length `NHiggs` of an initialised model.  Another value of `diff` returns the matrix
uninitialised. -/
def higgsMassMatrix (c : Curv n K) (debye : Fin n → Fin n → K) (v : FVec n K) (T : K) (diff : Int) :
    Outcome (Fin n → Fin n → K) :=
  if diff = 0 then ok (mass0 c debye v T)
  else match fieldIndex n diff with
    | some x => ok (massD c v x)
    | none => if diff = -1 then ok (massT debye T) else ub .uninitialised

/-! ### Symmetrisation -/

/-- A tensor of any rank as a function of its indices; writing one entry. -/
def setEntry (t : List Nat → K) (p : List Nat) (x : K) : List Nat → K :=
  fun q => if q = p then x else t q

/-- The body of the loops of `sym2Dim … sym4Dim`: for the permuted positions in turn
`Tensor[position] = Tensor[k1]…[kn]`. -/
def symBody (perms : List Nat → List (List Nat)) (t : List Nat → K) (s : List Nat) : List Nat → K :=
  (perms s).foldl (fun t p => setEntry t p (t s)) t

/-- The position written by `sym2Dim`, ClassPotentialOrigin.cpp:3401. -/
def perms2 : List Nat → List (List Nat)
  | [k1, k2] => [[k2, k1]]
  | _ => []

/-- The positions written by `sym3Dim`, ClassPotentialOrigin.cpp:3406-3426. -/
def perms3 : List Nat → List (List Nat)
  | [k1, k2, k3] => [[k1, k3, k2], [k2, k1, k3], [k2, k3, k1], [k3, k1, k2], [k3, k2, k1]]
  | _ => []

/-- The positions written by `sym4Dim`, ClassPotentialOrigin.cpp:3443-3465. -/
def perms4 : List Nat → List (List Nat)
  | [k1, k2, k3, k4] =>
    [[k1, k2, k4, k3], [k1, k3, k2, k4], [k1, k3, k4, k2], [k1, k4, k2, k3], [k1, k4, k3, k2],
     [k2, k1, k3, k4], [k2, k1, k4, k3], [k2, k3, k1, k4], [k2, k3, k4, k1], [k2, k4, k1, k3],
     [k2, k4, k3, k1], [k3, k1, k2, k4], [k3, k1, k4, k2], [k3, k2, k1, k4], [k3, k2, k4, k1],
     [k3, k4, k1, k2], [k3, k4, k2, k1], [k4, k1, k2, k3], [k4, k1, k3, k2], [k4, k2, k1, k3],
     [k4, k2, k3, k1], [k4, k3, k1, k2], [k4, k3, k2, k1]]
  | _ => []

/-- `for (k = from; k < to; k++)` -/
def rangeFrom (a b : Nat) : List Nat := (List.range (b - a)).map (a + ·)

/-- `Class_Potential_Origin::sym2Dim`, ClassPotentialOrigin.cpp:3392-3404. -/
def sym2Dim (t : List Nat → K) (N1 N2 : Nat) : List Nat → K :=
  ((List.range N1).flatMap fun k1 => (rangeFrom k1 N2).map fun k2 => [k1, k2]).foldl
    (symBody perms2) t

/-- `Class_Potential_Origin::sym3Dim`, ClassPotentialOrigin.cpp:3406-3426. -/
def sym3Dim (t : List Nat → K) (N1 N2 N3 : Nat) : List Nat → K :=
  ((List.range N1).flatMap fun k1 => (rangeFrom k1 N2).flatMap fun k2 =>
    (rangeFrom k2 N3).map fun k3 => [k1, k2, k3]).foldl (symBody perms3) t

/-- `Class_Potential_Origin::sym4Dim`, ClassPotentialOrigin.cpp:3428-3470. -/
def sym4Dim (t : List Nat → K) (N1 N2 N3 N4 : Nat) : List Nat → K :=
  ((List.range N1).flatMap fun k1 => (rangeFrom k1 N2).flatMap fun k2 =>
    (rangeFrom k2 N3).flatMap fun k3 => (rangeFrom k3 N4).map fun k4 => [k1, k2, k3, k4]).foldl
      (symBody perms4) t

/-! ### The effective potential -/

/-- What `VEff` uses of an initialised model: `VevOrder` (of length `nVEV`), `UseTreeLevel` and the
three contributions for vectors of length `NHiggs = n`. -/
structure Parts (n : Nat) (K : Type) where
  vevOrder : List Nat
  useTreeLevel : Bool
  tree : List K → Int → K
  counter : List K → Int → K
  loop : List K → K → Int → Outcome K

/-- The end of `VEff`, for a vector of length `NHiggs`, ClassPotentialOrigin.cpp:2979-2988. -/
def vEffFull (p : Parts n K) (v : List K) (T : K) (diff order : Int) : Outcome K :=
  if order ≠ 0 ∧ p.useTreeLevel = false then do
    let l ← p.loop v T diff
    ok (p.tree v diff + p.counter v diff + l)
  else ok (p.tree v diff)

/-- `Class_Potential_Origin::VEff`, ClassPotentialOrigin.cpp:2948-2989.  The call for a vector in
minimizer coordinates passes no `Order` and therefore uses the default 1
(ClassPotentialOrigin.h:670). -/
def vEff (p : Parts n K) (v : List K) (T : K) (diff order : Int) : Outcome K :=
  if v.length ≠ p.vevOrder.length ∧ v.length ≠ n then err .runtime
  else if v.length = p.vevOrder.length ∧ p.vevOrder.length ≠ n then do
    let w ← Models.minimizeOrderVEV n p.vevOrder v
    vEffFull p w T diff 1
  else vEffFull p v T diff order

/-! ### Checks of vacua -/

section Checks

variable {F : Type} [Field F] [LinearOrder F]

/-- The loop of `CheckNLOVEV`, ClassPotentialOrigin.cpp:3481-3493, from the running maximum on. -/
def maxDiff : List (Flt F × Flt F) → Flt F → Flt F
  | [], m => m
  | (x, y) :: rest, m =>
    let tmp : Flt F := match x, y with
      | .fin a, .fin b => .fin |(|a| - |b|)|
      | _, _ => .nan
    maxDiff rest (if Flt.gt tmp m then tmp else m)

/-- `Class_Potential_Origin::CheckNLOVEV`, ClassPotentialOrigin.cpp:3481-3493; `v` and `vevTreeMin`
have `nVEV` components. -/
def checkNLOVEV (v treeMin : List (Flt F)) : Bool :=
  Flt.lt (maxDiff (v.zip treeMin) (.fin 0)) (.fin 1)

/-- `checkgauge` of `EWSBVEV` and `SetEWVEVZero` (ClassPotentialOrigin.cpp:3500-3504, 3521-3525):
`g2h2 j i` stands for `Curvature_Gauge_G2H2[j][j][i][i]`. -/
def checkGauge (nGauge : Nat) (g2h2 : Nat → Nat → F) (i : Nat) : F :=
  ((List.range nGauge).map fun j => |g2h2 j i|).sum

/-- The sum of squares of `EWSBVEV`, ClassPotentialOrigin.cpp:3495-3514, from field `i` on for
`fuel` fields. -/
def ewSquares (nGauge : Nat) (g2h2 : Nat → Nat → F) (v : List F) : (fuel i : Nat) → Outcome F
  | 0, _ => ok 0
  | fuel + 1, i =>
    if checkGauge nGauge g2h2 i ≠ 0 then do
      let x ← at' v i
      let r ← ewSquares nGauge g2h2 v fuel (i + 1)
      ok (x ^ 2 + r)
    else ewSquares nGauge g2h2 v fuel (i + 1)

/-- `Class_Potential_Origin::EWSBVEV`, ClassPotentialOrigin.cpp:3495-3514; `sqrt` is the square
root. -/
def ewsbVEV (sqrt : F → F) (nHiggs nGauge : Nat) (g2h2 : Nat → Nat → F) (v : List F) :
    Outcome F := do
  let s ← ewSquares nGauge g2h2 v nHiggs 0
  if sqrt s ≤ 1 / 2 then ok 0 else ok (sqrt s)

/-- The loop of `SetEWVEVZero`, ClassPotentialOrigin.cpp:3516-3532, from field `i` on for `fuel`
fields.  `VevOrder[count]` is an unchecked read that happens only for charged fields,
`sol.at(count)` is checked. -/
def setEWVEVZeroLoop (nGauge : Nat) (g2h2 : Nat → Nat → F) (order : List Nat) :
    (fuel i count : Nat) → List F → Outcome (List F)
  | 0, _, _, sol => ok sol
  | fuel + 1, i, count, sol =>
    if 1 / 10 ^ 10 < checkGauge nGauge g2h2 i then do
      let o ← idx order count
      if i = o then do
        let _ ← at' sol count
        setEWVEVZeroLoop nGauge g2h2 order fuel (i + 1) (count + 1) (sol.set count 0)
      else setEWVEVZeroLoop nGauge g2h2 order fuel (i + 1) count sol
    else setEWVEVZeroLoop nGauge g2h2 order fuel (i + 1) count sol

/-- `Class_Potential_Origin::SetEWVEVZero`, ClassPotentialOrigin.cpp:3516-3532. -/
def setEWVEVZero (nHiggs nGauge : Nat) (g2h2 : Nat → Nat → F) (order : List Nat) (sol : List F) :
    Outcome (List F) :=
  setEWVEVZeroLoop nGauge g2h2 order nHiggs 0 0 sol

end Checks

end Verif.Potential
