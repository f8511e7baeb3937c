import Verif.Outcome
import Mathlib.Algebra.Order.Field.Basic
import Mathlib.Algebra.BigOperators.Group.List.Basic
import Mathlib.Algebra.BigOperators.Fin

/-!
# The triple Higgs couplings of the physical particles

`TripleHiggsCouplings` of the models: the rows of the rotation matrix, which are sorted by mass, are assigned to the
particles in the legend, and the third derivatives in the fields are rotated to the particles.  Numbers are elements of
an ordered field without rounding; `R i j` is the entry of `HiggsRotationMatrix` in row `i` and column `j`.
-/

namespace Verif.Triple

variable {K : Type} [Field K] [LinearOrder K]

/-- The sum of the absolute values of some entries of a row is larger than `ZeroThreshold`, e.g.
ClassPotentialR2HDM.cpp:791-796. -/
def above (R : Nat → Nat → K) (cols : List Nat) (i : Nat) : Bool :=
  decide ((cols.map fun j => |R i j|).sum > 1 / 10 ^ 5)

/-- `for (i = first; i < first + count; i++) if (p(i)) pos = i;` with `pos` zero before the loop.  The code sets several
variables in one loop; they do not depend on each other. -/
def lastWhere (p : Nat → Bool) (first count : Nat) : Nat :=
  (List.range' first count).foldl (fun pos i => if p i then i else pos) 0

/-- The rows that are written to `posN` one after the other. -/
def hits (p : Nat → Bool) (first count : Nat) : List Nat := (List.range' first count).filter p

/-- `HiggsOrder`, ClassPotentialR2HDM.cpp:782-834.  `posN` is an array with two elements: a third row is written behind
its end, and a missing one leaves `-1`, which is used as the number of a row. -/
def orderR2HDM (R : Nat → Nat → K) : Outcome (List Nat) :=
  match hits (above R [4, 6]) 3 5 with
  | [h, H] => .ok [lastWhere (above R [0, 2]) 0 3, lastWhere (above R [1, 3]) 0 3, lastWhere (above R [0, 2]) 3 5,
      lastWhere (above R [1, 3]) 3 5, lastWhere (above R [5, 7]) 0 3, lastWhere (above R [5, 7]) 3 5, h, H]
  | _ => .ub .outOfBounds

/-- `std::vector<std::size_t> posN(3)` filled with `posN.at(countposN) = i`, ClassPotentialC2HDM.cpp:2435-2463 and
ClassPotentialN2HDM.cpp:809-839. -/
def fill3 : List Nat → Outcome (Nat × Nat × Nat)
  | [] => .ok (0, 0, 0)
  | [a] => .ok (a, 0, 0)
  | [a, b] => .ok (a, b, 0)
  | [a, b, c] => .ok (a, b, c)
  | _ => .err .outOfRange

/-- `if (m < 126 and m > 124) MSM = m;` for the three neutral particles, ClassPotentialC2HDM.cpp:2476-2480 and
ClassPotentialN2HDM.cpp:850-854.  `m` are the square roots of `HiggsMassesSquared`. -/
def findSM (m : Nat → K) (posN : Nat × Nat × Nat) (msm : K) : K :=
  [posN.1, posN.2.1, posN.2.2].foldl (fun s p => if m p < 126 ∧ m p > 124 then m p else s) msm

/-- `MhUp` and `MhDown` and the exchange of the positions, ClassPotentialC2HDM.cpp:2481-2509 and
ClassPotentialN2HDM.cpp:855-882. -/
def exchange (m : Nat → K) (posN : Nat × Nat × Nat) (msm : K) : Nat × Nat × Nat :=
  let (a, b, c) := posN
  let (up, down) := if m a = msm then (m c, m b) else if m b = msm then (m c, m a) else (m b, m a)
  let (a, b, c) := if msm > up then (a, c, b) else (a, b, c)
  if msm > down then (b, a, c) else (a, b, c)

/-- `HiggsOrder`, ClassPotentialC2HDM.cpp:2433-2517; `hsm` is `UseHsmNotationInTripleHiggs`. -/
def orderC2HDM (hsm : Bool) (R : Nat → Nat → K) (m : Nat → K) : Outcome (List Nat) := do
  let posN ← fill3 (hits (above R [4, 5, 6, 7]) 3 5)
  let posN := if hsm then exchange m posN (findSM m posN 0) else posN
  pure [lastWhere (above R [0, 2]) 0 3, lastWhere (above R [1, 3]) 0 3, lastWhere (above R [0, 2]) 3 5,
    lastWhere (above R [1, 3]) 3 5, lastWhere (above R [5, 7]) 0 3, posN.1, posN.2.1, posN.2.2]

/-- The rows of `HiggsRotSort`, ClassPotentialN2HDM.cpp:806-893.  `MSM` is a member of the class which keeps its value:
the argument `msm` is the value before, the second component of the result the value after the call. -/
def orderN2HDM (R : Nat → Nat → K) (m : Nat → K) (msm : K) : Outcome (List Nat × K) := do
  let posN ← fill3 (hits (above R [6, 7, 8]) 3 6)
  let msm' := findSM m posN msm
  let posN := exchange m posN msm'
  pure ([lastWhere (above R [0, 1]) 0 3, lastWhere (above R [2, 3]) 0 3, lastWhere (above R [0, 1]) 3 6,
    lastWhere (above R [2, 3]) 3 6, lastWhere (above R [4, 5]) 0 3, lastWhere (above R [4, 5]) 3 6, posN.1, posN.2.1,
    posN.2.2], msm')

/-- The model is used for one parameter point after the other; `MSM` is zero at the beginning,
ClassPotentialN2HDM.h:96. -/
def runN2HDM (points : List ((Nat → Nat → K) × (Nat → K))) : Outcome (List (List Nat)) :=
  (go 0 points)
where
  go (msm : K) : List ((Nat → Nat → K) × (Nat → K)) → Outcome (List (List Nat))
    | [] => .ok []
    | (R, m) :: rest => do
      let (o, msm') ← orderN2HDM R m msm
      let os ← go msm' rest
      pure (o :: os)

/-- `if (posh1 == 0) posh1 = i; else if (posh2 == 0) posh2 = i; else posh3 = i;`, ClassPotentialCPintheDark.cpp:1362-1380
and ClassPotentialCxSM.cpp:803-822. -/
def setNext (s : Nat × Nat × Nat) (i : Nat) : Nat × Nat × Nat :=
  if s.1 = 0 then (i, s.2.1, s.2.2) else if s.2.1 = 0 then (s.1, i, s.2.2) else (s.1, s.2.1, i)

/-- The `else if` chain: the row has an entry in column `cols[k]` and none in the columns before. -/
def chain (R : Nat → Nat → K) (before : List Nat) (col : Nat) (i : Nat) : Bool :=
  (before.all fun j => !above R [j] i) && above R [col] i

/-- The rows of `HiggsRotSort`, ClassPotentialCPintheDark.cpp:1323-1396. -/
def orderCPintheDark (R : Nat → Nat → K) : List Nat :=
  let n := (hits (above R [6, 7, 8]) 0 9).foldl setNext (0, 0, 0)
  [lastWhere (chain R [] 0) 0 9, lastWhere (chain R [0] 1) 0 9, lastWhere (chain R [0, 1] 2) 0 9,
    lastWhere (chain R [0, 1, 2] 3) 0 9, lastWhere (chain R [0, 1, 2, 3] 4) 0 9,
    lastWhere (chain R [0, 1, 2, 3, 4] 5) 0 9, n.1, n.2.1, n.2.2]

/-- `HiggsOrder`, ClassPotentialCxSM.cpp:773-831. -/
def orderCxSM (R : Nat → Nat → K) : List Nat :=
  let n := (hits (above R [3, 4, 5]) 0 6).foldl setNext (0, 0, 0)
  [lastWhere (chain R [] 0) 0 6, lastWhere (chain R [0] 1) 0 6, lastWhere (chain R [0, 1] 2) 0 6, n.1, n.2.1, n.2.2]

/-- `HiggsOrder[i] = i`, ClassPotentialSM.cpp:276-281 and ClassTemplate.cpp:287-296. -/
def orderSM (_R : Nat → Nat → K) : List Nat := [0, 1, 2, 3]

end Verif.Triple
