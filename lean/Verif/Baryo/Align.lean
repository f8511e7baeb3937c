import Verif.Models.Model
import Mathlib.Algebra.Order.Field.Basic
import Mathlib.Analysis.SpecialFunctions.Complex.Arg

/-!
# The start of the calculation of the baryon asymmetry

`GSL_integration_mubl::init`, src/baryo_calculation/transport_equations.cpp:154-347: the vacua are moved to the
side of the tree-level vacuum with the sign symmetries of the model, and the CP-violating phases of the top quark,
the bottom quark and the tau lepton are read off the complex masses.
-/

namespace Verif.Baryo.Align

open Outcome

section Signs

variable {K : Type} [Field K] [LinearOrder K]

/-- `CompareNorm`, transport_equations.cpp:175-177. -/
def compareNorm (tree : List K) : K := (tree.map (· ^ 2)).sum

/-- `TestNorm` without a symmetry, transport_equations.cpp:179-182, 203-206 and 244-247; `get_vevTreeMin(i)` is
`vevTreeMin.at(i)`, ClassPotentialOrigin.h:502. -/
def testNorm (tree v : List K) : Outcome K := do
  let l ← (List.range v.length).mapM fun i => do
    let t ← at' tree i
    let x ← at' v i
    ok ((t - x) ^ 2)
  ok l.sum

/-- `TestNorm` with a symmetry, transport_equations.cpp:187-193, 211-217 and 252-258. -/
def testFlip (tree s v : List K) : Outcome K := do
  let l ← (List.range v.length).mapM fun i => do
    let t ← at' tree i
    let g ← at' s i
    let x ← at' v i
    ok ((t - g * x) ^ 2)
  ok l.sum

/-- The change of the signs, transport_equations.cpp:196-197, 220-221 and 261-262. -/
def flip (s v : List K) : Outcome (List K) :=
  (List.range v.length).mapM fun i => do
    let x ← at' v i
    let g ← at' s i
    ok (x * g)

/-- The loop over `SignSymmetries`, transport_equations.cpp:185-200, 209-224 and 250-265. -/
def firstFlip (tree : List K) (norm : K) (v : List K) : List (List K) → Outcome (List K)
  | [] => ok v
  | s :: rest => do
    let t ← testFlip tree s v
    if t < norm then flip s v else firstFlip tree norm v rest

/-- A vacuum is moved to the side of the tree-level vacuum, transport_equations.cpp:179-201, 203-225 and 244-266
(for values without NaN). -/
def align (tree : List K) (syms : List (List K)) (v : List K) : Outcome (List K) := do
  let t ← testNorm tree v
  if compareNorm tree < t then firstFlip tree (compareNorm tree) v syms else ok v

/-- `basepoint`, transport_equations.cpp:234-239. -/
def basepoint (critical symmetric : List K) : Outcome (List K) :=
  (List.range critical.length).mapM fun i => do
    let s ← at' symmetric i
    let c ← at' critical i
    let s' ← at' symmetric i
    ok (s + 1 / 100 * (c - s'))

end Signs

/-- `list.at(list.size() - k)`: the difference of unsigned numbers wraps around for shorter lists. -/
def fromEnd (l : List ℂ) (k : Nat) : Outcome ℂ := if l.length < k then err .outOfRange else at' l (l.length - k)

/-- The four phases of one vacuum. -/
structure Phases where
  /-- `symmetric_CP_violating_phase` or `broken_CP_violating_phase` -/
  all : ℝ
  top : ℝ
  bot : ℝ
  tau : ℝ

/-- The numerical stability check, e.g. transport_equations.cpp:300-301. -/
noncomputable def stable (x : ℝ) : ℝ := if |x| < 1 / 10 ^ 14 then 0 else x

/-- One phase: the argument of the entry `k` from the end, and that of the entry `k'` from the end if it is
larger than `0.5 * M_PI`, e.g. transport_equations.cpp:277-278 and 288-292. -/
noncomputable def phase (l : List ℂ) (k k' : Nat) : Outcome ℝ := do
  let z ← fromEnd l k
  if Real.pi / 2 < |z.arg| then do
    let z' ← fromEnd l k'
    ok z'.arg
  else ok z.arg

/-- The phases from the complex masses of the quarks and leptons, transport_equations.cpp:273-305 and 314-345.
Every exception is `std::out_of_range`, so the order of the reads is not kept. -/
noncomputable def phases (quarks leptons : List ℂ) : Outcome Phases := do
  let top ← phase quarks 1 2
  let bot ← phase quarks 3 4
  let tau ← phase leptons 1 2
  ok ⟨top, stable top, stable bot, stable tau⟩

/-- What `init` asks of the model and of the libraries: `vevTreeMin`, `SignSymmetries`, `NHiggs`, `VevOrder`,
`EWSBVEV`, `calculate_wall_thickness_plane` (of the critical and of the symmetric vacuum), the minimum of
`MinimizePlane` (of the base point, the symmetric and the critical vacuum), `QuarkMasses` and `LeptonMasses`. -/
structure Env where
  tree : List ℝ
  syms : List (List ℝ)
  nHiggs : Nat
  order : List Nat
  ewsb : List ℝ → Outcome ℝ
  wall : ℝ → List ℝ → List ℝ → Outcome ℝ
  plane : ℝ → List ℝ → List ℝ → List ℝ → Outcome (List ℝ)
  quarks : List ℝ → Outcome (List ℂ)
  leptons : List ℝ → Outcome (List ℂ)

/-- The members that `init` sets, without the pointer to the model and its parameters. -/
structure Started where
  vw : ℝ
  tc : ℝ
  vc : ℝ
  critical : List ℝ
  symmetric : List ℝ
  velocities : Bool
  lw : ℝ
  zmax : ℝ
  symPhases : Phases
  brokenPhases : Phases
  symTheta : List ℝ

/-- `GSL_integration_mubl::init`, transport_equations.cpp:154-347. -/
noncomputable def init (e : Env) (vw : ℝ) (critical symmetric : List ℝ) (tc : ℝ) : Outcome Started := do
  let full ← Models.minimizeOrderVEV e.nHiggs e.order critical
  let vc ← e.ewsb full
  let c ← align e.tree e.syms critical
  let s ← align e.tree e.syms symmetric
  let lw ← e.wall tc c s
  let b ← basepoint c s
  let p ← e.plane tc b s c
  let p ← align e.tree e.syms p
  let fs ← Models.minimizeOrderVEV e.nHiggs e.order p
  let qs ← e.quarks fs
  let ls ← e.leptons fs
  let ps ← phases qs ls
  let fb ← Models.minimizeOrderVEV e.nHiggs e.order c
  let qb ← e.quarks fb
  let lb ← e.leptons fb
  let pb ← phases qb lb
  ok ⟨vw, tc, vc, c, s, false, lw, 4 * lw, ps, pb, p⟩

end Verif.Baryo.Align
