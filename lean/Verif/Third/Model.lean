import Verif.Weinberg.Model
import Mathlib.Analysis.RCLike.Basic

/-!
# Third derivatives of the Coleman-Weinberg potential

`WeinbergThirdDerivative`: the third derivatives of the one-loop potential at the vacuum from the couplings of
the mass eigenstates, over the real numbers without rounding.
-/

namespace Verif.Weinberg

open Verif.Potential Verif.Invariance
open scoped BigOperators

noncomputable section

variable {n m : Nat}

/-- The number that `fbaseTri` returns. -/
def triValue (scale a b c : ℝ) : ℝ :=
  match fbaseTri scale a b c with
  | .ok x => x
  | _ => 0

/-- `Higgspart`, `GaugePart`, `QuarkPart` and `LeptonPart`, ClassPotentialOrigin.cpp:1716-1816: `C3` and `C4` are
the couplings of two of the particles to one and two scalars. -/
def thirdPart {𝕜 : Type} [RCLike 𝕜] (scale cb : ℝ) (M : Fin m → ℝ) (C3 : Fin m → Fin m → Fin n → 𝕜)
    (C4 : Fin m → Fin m → Fin n → Fin n → 𝕜) (i j k : Fin n) : 𝕜 :=
  ∑ a, ∑ b, ((∑ c, 2 * (triValue scale (M a) (M b) (M c) : 𝕜) * C3 a b i * C3 b c j * C3 c a k) +
    3 * C4 a b i j * C3 b a k * ((fbaseValue scale (M a) (M b) - cb + 1 / 2 : ℝ) : 𝕜))

/-- `HiggspartSym`, `GaugePartSym`, `QuarkPartSym` and `LeptonPartSym`, ClassPotentialOrigin.cpp:1818-1845. -/
def thirdSym {𝕜 : Type} [RCLike 𝕜] (P : Fin n → Fin n → Fin n → 𝕜) (i j k : Fin n) : 𝕜 :=
  ((P i j k + P i k j) + (P j i k + P j k i) + (P k i j + P k j i)) * (1 / 6)

/-- `restmp`, ClassPotentialOrigin.cpp:1847-1859. -/
def thirdStorage (p : Physical n) (scale : ℝ) (i j k : Fin n) : ℂ :=
  ((1 / 2 * thirdSym (thirdPart scale cCWcb p.massHiggs p.higgs3 p.higgs4) i j k : ℝ) : ℂ) +
    ((3 / 2 * thirdSym (thirdPart scale cCWcbGB p.massGauge p.gauge3 p.gauge4) i j k : ℝ) : ℂ) +
    -1 * thirdSym (thirdPart scale cCWcb p.massLepton p.lepton3 p.lepton4) i j k +
    -3 * thirdSym (thirdPart scale cCWcb p.massQuark p.quark3 p.quark4) i j k

/-- `resGaugeBase` before the comparison with `NumZero`, ClassPotentialOrigin.cpp:1861-1885. -/
def thirdRaw (p : Physical n) (scale : ℝ) (l m q : Fin n) : ℝ :=
  (∑ i, ∑ j, ∑ k, p.rot i l * p.rot j m * p.rot k q * (thirdStorage p scale i j k).re) *
    (1 / (16 * Real.pi * Real.pi))

/-- `fbaseTri` throws for some of the masses of a species. -/
def Throws (scale : ℝ) (M : Fin m → ℝ) : Prop := ∃ a b c, fbaseTri scale (M a) (M b) (M c) = .err .runtime

/-- `fbaseTri` throws for some of the masses. -/
def Physical.Throws (p : Physical n) (scale : ℝ) : Prop :=
  Weinberg.Throws scale p.massHiggs ∨ Weinberg.Throws scale p.massGauge ∨ Weinberg.Throws scale p.massQuark ∨
    Weinberg.Throws scale p.massLepton

open Classical in
/-- `WeinbergThirdDerivative`, ClassPotentialOrigin.cpp:1656-1900, for a model with at least one scalar; `none` if
the couplings have not been calculated.  If `fbaseTri` does not throw although a squared mass is negative (all
masses of the species are equal), then `fbase` is NaN, and so is the sum for every index. -/
def weinbergThird (p : Option (Physical n)) (scale : ℝ) : Outcome (Fin n → Fin n → Fin n → Flt ℝ) :=
  match p with
  | none => .err .runtime
  | some p => if p.Throws scale then .err .runtime else
      .ok fun l m q => if p.Negative then .nan else .fin (cutSmall (thirdRaw p scale l m q))

/-- The vector that `WeinbergThirdDerivative` returns: the last index runs fastest,
ClassPotentialOrigin.cpp:1888-1900. -/
def weinbergThirdVector (p : Option (Physical n)) (scale : ℝ) : Outcome (List (Flt ℝ)) :=
  match weinbergThird p scale with
  | .ok T => .ok ((List.finRange n).flatMap fun l => (List.finRange n).flatMap fun m =>
      (List.finRange n).map fun q => T l m q)
  | .err e => .err e
  | .ub u => .ub u

end

end Verif.Weinberg
