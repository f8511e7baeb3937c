import Verif.Outcome
import Verif.Parser.Model

/-!
# Model of `src/models/IncludeAllModels.cpp`
-/

namespace Verif.Models

open Outcome Parser

/-- `enum class ModelIDs`, IncludeAllModels.h:31-46. -/
inductive ModelID where
  | notSet | c2hdm | r2hdm | n2hdm | cxsm | cpinthedark | sm | template | stop
  deriving DecidableEq, Repr

/-- The initialiser list of `ModelNames`, IncludeAllModels.h:52-60.  `ModelNames` is an
`unordered_map`; its iteration order is unspecified, so the functions below take the list of its
entries in iteration order as an argument and the theorems hold for every permutation of this
table. -/
def modelNames : List (Str × ModelID) :=
  [ ("c2hdm".toList, .c2hdm), ("r2hdm".toList, .r2hdm), ("n2hdm".toList, .n2hdm),
    ("cxsm".toList, .cxsm), ("sm".toList, .sm), ("cpinthedark".toList, .cpinthedark),
    ("template".toList, .template) ]

/-- `getModel`, IncludeAllModels.cpp:60-76: the first entry, in iteration order, whose name equals
the input after lower-casing both. -/
def getModel (names : List (Str × ModelID)) (s : Str) : ModelID :=
  match names with
  | [] => .notSet
  | (key, id) :: rest => if lower s = lower key then id else getModel rest s

/-- `unordered_map<ModelIDs, std::string>::emplace`: refused when the key is present. -/
def emplaceName (m : List (ModelID × Str)) (id : ModelID) (s : Str) :
    Outcome (List (ModelID × Str)) :=
  if m.any (fun e => e.1 = id) then err .runtime else ok (m ++ [(id, s)])

/-- `InvertModelNames`, IncludeAllModels.cpp:78-91. -/
def invertModelNames (names : List (Str × ModelID)) : Outcome (List (ModelID × Str)) :=
  names.foldlM (init := []) fun m e => emplaceName m e.2 e.1

/-- `map.at(id)` on the inverted map. -/
def nameOf (m : List (ModelID × Str)) (id : ModelID) : Outcome Str :=
  match m.find? (fun e => e.1 = id) with
  | some e => ok e.2
  | none => err .outOfRange

/-- The model classes. -/
inductive Class where
  | sm | r2hdm | c2hdm | n2hdm | cxsm | cpinthedark | template
  deriving DecidableEq, Repr

/-- `FChoose`, IncludeAllModels.cpp:33-58. -/
def fChoose : ModelID → Outcome Class
  | .sm => ok .sm
  | .r2hdm => ok .r2hdm
  | .c2hdm => ok .c2hdm
  | .n2hdm => ok .n2hdm
  | .cxsm => ok .cxsm
  | .cpinthedark => ok .cpinthedark
  | .template => ok .template
  | _ => err .runtime

/-- The member `Model` set by the constructors: ClassPotentialSM.cpp:26, ClassPotentialR2HDM.cpp:21,
ClassPotentialC2HDM.cpp:21, ClassPotentialN2HDM.cpp:27, ClassPotentialCxSM.cpp:31,
ClassPotentialCPintheDark.cpp:35, ClassTemplate.cpp:39. -/
def Class.model : Class → ModelID
  | .sm => .sm
  | .r2hdm => .r2hdm
  | .c2hdm => .c2hdm
  | .n2hdm => .n2hdm
  | .cxsm => .cxsm
  | .cpinthedark => .cpinthedark
  | .template => .template

/-- `NNeutralHiggs + NChargedHiggs` of the constructors: ClassPotentialSM.cpp:27-35,
ClassPotentialR2HDM.cpp:22-25, ClassPotentialC2HDM.cpp:22-31, ClassPotentialN2HDM.cpp:28-36,
ClassPotentialCxSM.cpp:33-41, ClassPotentialCPintheDark.cpp:36-45, ClassTemplate.cpp:42-50. -/
def Class.nHiggs : Class → Nat
  | .sm => 2 + 2
  | .r2hdm => 4 + 4
  | .c2hdm => 4 + 4
  | .n2hdm => 5 + 4
  | .cxsm => 4 + 2
  | .cpinthedark => 5 + 4
  | .template => 1 + 0

/-- `VevOrder` of the constructors (its length is `nVEV`): ClassPotentialSM.cpp:37-38,
ClassPotentialR2HDM.cpp:35-39, ClassPotentialC2HDM.cpp:36-49 (`IncludeChargeBreakingVEV` is the
argument), ClassPotentialN2HDM.cpp:41-46, ClassPotentialCxSM.cpp:43-47,
ClassPotentialCPintheDark.cpp:47-52, ClassTemplate.cpp:52-54. -/
def Class.vevOrder (chargeBreaking : Bool) : Class → List Nat
  | .sm => [2]
  | .r2hdm => [2, 4, 6, 7]
  | .c2hdm => if chargeBreaking then [2, 4, 6, 7] else [4, 6, 7]
  | .n2hdm => [1, 5, 6, 7, 8]
  | .cxsm => [3, 4, 5]
  | .cpinthedark => [2, 4, 6, 7, 8]
  | .template => [0]

/-- The loop of `MinimizeOrderVEV`, ClassPotentialOrigin.cpp:3966-3983, from index `i` for `fuel`
more indices, with `count` already consumed.  `VevOrder[count]` is an unchecked read,
`vevMinimizer.at(count)` a checked one. -/
def minimizeOrderVEVLoop {α : Type} [Zero α] (order : List Nat) (v : List α) :
    (fuel i count : Nat) → Outcome (List α)
  | 0, _, _ => ok []
  | fuel + 1, i, count => do
    let o ← idx order count
    if i = o then do
      let x ← at' v count
      let r ← minimizeOrderVEVLoop order v fuel (i + 1) (count + 1)
      ok (x :: r)
    else do
      let r ← minimizeOrderVEVLoop order v fuel (i + 1) count
      ok (0 :: r)

/-- `Class_Potential_Origin::MinimizeOrderVEV`, ClassPotentialOrigin.cpp:3966-3983. -/
def minimizeOrderVEV {α : Type} [Zero α] (nHiggs : Nat) (order : List Nat) (v : List α) :
    Outcome (List α) :=
  minimizeOrderVEVLoop order v nHiggs 0 0

end Verif.Models
