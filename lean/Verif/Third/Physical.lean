import Verif.Third.Model

/-!
# Triple couplings of the mass eigenstates

The second half of `TripleHiggsCouplings`, after the rows of the rotation matrix have been assigned to the particles.
The code is the same in all models.
-/

namespace Verif.Weinberg

open Verif.Potential Verif.Invariance
open scoped BigOperators

noncomputable section

variable {n : Nat}

/-- `LambdaHiggs_3_CT`, `Prepare_Triple`, ClassPotentialOrigin.cpp:61-78. -/
def lambdaHiggs3CT (ct : Curv n ℝ) (v : Fin n → ℝ) (a b i : Fin n) : ℝ :=
  ct.L3 a b i + ∑ j, ct.L4 a b i j * v j

/-- `GaugeBasis`, for example ClassPotentialR2HDM.cpp:756-771; `at` throws if there is no such entry. -/
def gaugeBasis (n : Nat) (L : List (Flt ℝ)) : Outcome (Fin n → Fin n → Fin n → Flt ℝ) :=
  if ∀ i j k : Fin n, (i : Nat) + j * n + k * n * n < L.length then
    .ok fun i j k => L.getD (i + j * n + k * n * n) .nan
  else .err .outOfRange

/-- A number, or zero for NaN. -/
def number : Flt ℝ → ℝ
  | .nan => 0
  | .fin x => x

/-- The sum over `l`, `m` and `n` with `RotFac`, for example ClassPotentialR2HDM.cpp:849-876; `R` is `HiggsRotSort`. -/
def rotated (R : Fin n → Fin n → ℝ) (T : Fin n → Fin n → Fin n → ℝ) (i j k : Fin n) : ℝ :=
  ∑ l, ∑ m, ∑ q, R i l * R j m * R k q * T l m q

/-- `TripleHiggsCorrectionsTreePhysical`, `TripleHiggsCorrectionsCTPhysical` and `TripleHiggsCorrectionsCWPhysical`. -/
structure Couplings (n : Nat) where
  tree : Fin n → Fin n → Fin n → ℝ
  ct : Fin n → Fin n → Fin n → ℝ
  cw : Fin n → Fin n → Fin n → Flt ℝ

open Classical in
/-- `TripleHiggsCouplings` for the given order of the rows: ClassPotentialR2HDM.cpp:756-771 and 826-879,
ClassPotentialC2HDM.cpp:2407-2423 and 2518-2573, ClassPotentialN2HDM.cpp:780-795 and 884-940,
ClassPotentialCxSM.cpp:832-901, ClassPotentialCPintheDark.cpp:1385-1460, ClassPotentialSM.cpp:283-361.  A sum with NaN
is NaN, also if the factor is zero. -/
def tripleCouplings (p : Physical n) (scale : ℝ) (tree ct : Curv n ℝ) (v : Fin n → ℝ) (order : Fin n → Fin n) :
    Outcome (Couplings n) :=
  match weinbergThirdVector (some p) scale with
  | .err e => .err e
  | .ub u => .ub u
  | .ok L =>
    match gaugeBasis n L with
    | .err e => .err e
    | .ub u => .ub u
    | .ok G =>
      let R : Fin n → Fin n → ℝ := fun i l => p.rot (order i) l
      .ok ⟨rotated R (lambdaHiggs3 tree v), rotated R (lambdaHiggs3CT ct v),
        fun i j k => if ∃ l m q, G l m q = .nan then .nan else .fin (rotated R (fun l m q => number (G l m q)) i j k)⟩

end

end Verif.Weinberg
