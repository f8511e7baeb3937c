import Verif.Invariance.Model
import Verif.Potential.LoopFun

/-!
# Derivatives of the Coleman-Weinberg potential

`CalculatePhysicalCouplings`, `WeinbergFirstDerivative` and `WeinbergSecondDerivative`: the couplings in
the basis of the mass eigenstates and the first and second derivatives of the one-loop potential at the
vacuum that are computed from them.  Models with four gauge bosons, twelve quark fields and nine lepton
fields, over the real numbers without rounding.
-/

namespace Verif.Weinberg

open Verif.Potential Verif.Spectrum Verif.Yukawa Verif.Invariance
open scoped BigOperators ComplexConjugate

noncomputable section

variable {n m : Nat}

/-- The eigenvectors that the solver of Eigen returns as the columns of a matrix. -/
structure Vectors where
  real : {k : Nat} → Matrix (Fin k) (Fin k) ℝ → Matrix (Fin k) (Fin k) ℝ
  complex : {k : Nat} → Matrix (Fin k) (Fin k) ℂ → Matrix (Fin k) (Fin k) ℂ

/-- `if (std::abs(x) < std::pow(10, -10)) x = 0`, ClassPotentialOrigin.cpp:1034, 1488, 1613, 1635. -/
def cutSmall (x : ℝ) : ℝ := if |x| < 1 / 10 ^ 10 then 0 else x

/-- `MassHiggs`, ClassPotentialOrigin.cpp:981-995. -/
def massHiggs (c : Curv n ℝ) (v : Fin n → ℝ) : Matrix (Fin n) (Fin n) ℝ :=
  fun i j => c.L2 i j + ∑ k, (c.L3 i j k * v k + ∑ l, 1 / 2 * c.L4 i j k l * v k * v l)

/-- `MassGauge`, ClassPotentialOrigin.cpp:997-1010. -/
def massGauge (G : List Nat → ℝ) (v : Fin n → ℝ) : Matrix (Fin 4) (Fin 4) ℝ :=
  fun a b => ∑ i : Fin n, ∑ j : Fin n, 1 / 2 * G [(a : Nat), (b : Nat), (i : Nat), (j : Nat)] * v i * v j

/-- `MassQuark` and `MassLepton`, ClassPotentialOrigin.cpp:1013-1018. -/
def massFermion (m : Nat) (F : List Nat → ℂ) (v : Fin n → ℝ) : Matrix (Fin m) (Fin m) ℂ :=
  (massMatrix (m := m) Lagrangian.zeroTensor F v).map conj * massMatrix Lagrangian.zeroTensor F v

/-- `LambdaHiggs_3`, ClassPotentialOrigin.cpp:1076-1091. -/
def lambdaHiggs3 (c : Curv n ℝ) (v : Fin n → ℝ) (a b i : Fin n) : ℝ :=
  c.L3 a b i + ∑ j, c.L4 a b i j * v j

/-- `LambdaGauge_3`, ClassPotentialOrigin.cpp:1063-1075. -/
def lambdaGauge3 (G : List Nat → ℝ) (v : Fin n → ℝ) (a b : Fin 4) (i : Fin n) : ℝ :=
  ∑ j : Fin n, G [(a : Nat), (b : Nat), (i : Nat), (j : Nat)] * v j

/-- `LambdaQuark_3` and `LambdaLepton_3`, ClassPotentialOrigin.cpp:1093-1106 and 1122-1135. -/
def lambdaFermion3 (m : Nat) (F : List Nat → ℂ) (v : Fin n → ℝ) (i j : Fin m) (k : Fin n) : ℂ :=
  ∑ l : Fin m, (conj (F [(i : Nat), (l : Nat), (k : Nat)]) *
      massMatrix (m := m) Lagrangian.zeroTensor F v l j +
    conj (massMatrix (m := m) Lagrangian.zeroTensor F v i l) * F [(l : Nat), (j : Nat), (k : Nat)])

/-- `LambdaQuark_4` and `LambdaLepton_4`, ClassPotentialOrigin.cpp:1107-1117 and 1136-1146. -/
def lambdaFermion4 (m : Nat) (F : List Nat → ℂ) (i j : Fin m) (k l : Fin n) : ℂ :=
  ∑ p : Fin m, (conj (F [(i : Nat), (p : Nat), (k : Nat)]) * F [(p : Nat), (j : Nat), (l : Nat)] +
    conj (F [(i : Nat), (p : Nat), (l : Nat)]) * F [(p : Nat), (j : Nat), (k : Nat)])

/-- A coupling of two particles to one scalar in the basis of the mass eigenstates,
ClassPotentialOrigin.cpp:1221-1233, 1264-1274, 1307-1320, 1353-1365. -/
def rotate3 {𝕜 : Type} [AddCommMonoid 𝕜] [SMul ℝ 𝕜] (A : Matrix (Fin m) (Fin m) ℝ)
    (R : Matrix (Fin n) (Fin n) ℝ) (L : Fin m → Fin m → Fin n → 𝕜) (a b : Fin m) (i : Fin n) : 𝕜 :=
  ∑ a', ∑ b', ∑ i', (A a a' * A b b' * R i i') • L a' b' i'

/-- A coupling of two particles to two scalars in the basis of the mass eigenstates,
ClassPotentialOrigin.cpp:1234-1252, 1275-1294, 1321-1340, 1366-1385. -/
def rotate4 {𝕜 : Type} [AddCommMonoid 𝕜] [SMul ℝ 𝕜] (A : Matrix (Fin m) (Fin m) ℝ)
    (R : Matrix (Fin n) (Fin n) ℝ) (L : Fin m → Fin m → Fin n → Fin n → 𝕜) (a b : Fin m)
    (i j : Fin n) : 𝕜 :=
  ∑ a', ∑ b', ∑ i', ∑ j', (A a a' * A b b' * R i i' * R j j') • L a' b' i' j'

/-- The masses and couplings that `CalculatePhysicalCouplings` stores. -/
structure Physical (n : Nat) where
  massHiggs : Fin n → ℝ
  massGauge : Fin 4 → ℝ
  massQuark : Fin 12 → ℝ
  massLepton : Fin 9 → ℝ
  rot : Matrix (Fin n) (Fin n) ℝ
  higgs3 : Fin n → Fin n → Fin n → ℝ
  higgs4 : Fin n → Fin n → Fin n → Fin n → ℝ
  gauge3 : Fin 4 → Fin 4 → Fin n → ℝ
  gauge4 : Fin 4 → Fin 4 → Fin n → Fin n → ℝ
  quark3 : Fin 12 → Fin 12 → Fin n → ℂ
  quark4 : Fin 12 → Fin 12 → Fin n → Fin n → ℂ
  lepton3 : Fin 9 → Fin 9 → Fin n → ℂ
  lepton4 : Fin 9 → Fin 9 → Fin n → Fin n → ℂ

/-- `HiggsRot`, ClassPotentialOrigin.cpp:1028-1036. -/
def higgsRot (X : Vectors) (c : Curv n ℝ) (v : Fin n → ℝ) : Matrix (Fin n) (Fin n) ℝ :=
  fun i j => cutSmall (X.real (massHiggs c v) j i)

/-- `GaugeRot`, ClassPotentialOrigin.cpp:1044-1045. -/
def gaugeRot (X : Vectors) (G : List Nat → ℝ) (v : Fin n → ℝ) : Matrix (Fin 4) (Fin 4) ℝ :=
  fun i j => X.real (massGauge G v) j i

/-- `QuarkRot` and `LepRot`: the real part of the transposed matrix of eigenvectors,
ClassPotentialOrigin.cpp:1053-1054 and 1058-1059. -/
def fermionRot (X : Vectors) (m : Nat) (F : List Nat → ℂ) (v : Fin n → ℝ) :
    Matrix (Fin m) (Fin m) ℝ :=
  fun i j => (X.complex (massFermion m F v) j i).re

/-- `CalculatePhysicalCouplings`, ClassPotentialOrigin.cpp:962-1401, for the vacuum `v`. -/
def physicalCouplings (S : Solver) (X : Vectors) (t : Tensors n) (v : Fin n → ℝ) : Physical n :=
  let R := higgsRot X t.scalar v
  let A := gaugeRot X t.gauge v
  let Q := fermionRot X 12 t.quark v
  let L := fermionRot X 9 t.lepton v
  { massHiggs := fun i => cutMass (nth (S.real (massHiggs t.scalar v)) i)
    massGauge := fun i => cutMass (nth (S.real (massGauge t.gauge v)) i)
    massQuark := fun i => nth (S.complex (massFermion 12 t.quark v)) i
    massLepton := fun i => nth (S.complex (massFermion 9 t.lepton v)) i
    rot := R
    higgs3 := rotate3 R R (lambdaHiggs3 t.scalar v)
    higgs4 := rotate4 R R t.scalar.L4
    gauge3 := rotate3 A R (lambdaGauge3 t.gauge v)
    gauge4 := rotate4 A R fun a b i j => t.gauge [(a : Nat), (b : Nat), (i : Nat), (j : Nat)]
    quark3 := rotate3 Q R (lambdaFermion3 12 t.quark v)
    quark4 := rotate4 Q R (lambdaFermion4 12 t.quark)
    lepton3 := rotate3 L R (lambdaFermion3 9 t.lepton v)
    lepton4 := rotate4 L R (lambdaFermion4 9 t.lepton) }

/-- A squared mass is negative; its logarithm is NaN.  A sum which contains it is NaN for every entry of
the result: the sums over the particles contain the logarithm for every index, also if it is multiplied
with zero, and NaN passes the comparisons with the threshold. -/
def Physical.Negative (p : Physical n) : Prop :=
  (∃ i, p.massHiggs i < 0) ∨ (∃ i, p.massGauge i < 0) ∨ (∃ i, p.massQuark i < 0) ∨
    ∃ i, p.massLepton i < 0

/-- The loops over one species in `WeinbergFirstDerivative`, ClassPotentialOrigin.cpp:1423-1466; `C a i`
is the real part of the coupling `[a][a][i]`. -/
def firstSum (scale cb : ℝ) (M : Fin m → ℝ) (C : Fin m → Fin n → ℝ) (i : Fin n) : ℝ :=
  ∑ a, if M a ≠ 0 then M a * C a i * (Real.log (M a / scale ^ 2) - cb + 1 / 2) else 0

/-- `FirstDeriv` before the comparison with `NumZero`, ClassPotentialOrigin.cpp:1423-1481. -/
def firstRaw (p : Physical n) (scale : ℝ) (k : Fin n) : ℝ :=
  (∑ i, p.rot i k *
    (3 / 2 * firstSum scale cCWcbGB p.massGauge (fun a i => p.gauge3 a a i) i +
      1 / 2 * firstSum scale cCWcb p.massHiggs (fun a i => p.higgs3 a a i) i +
      -3 * firstSum scale cCWcb p.massQuark (fun a i => (p.quark3 a a i).re) i +
      -1 * firstSum scale cCWcb p.massLepton (fun a i => (p.lepton3 a a i).re) i)) *
    (1 / (16 * Real.pi * Real.pi))

open Classical in
/-- `WeinbergFirstDerivative`, ClassPotentialOrigin.cpp:1403-1495; `none` if the couplings have not been
calculated. -/
def weinbergFirst (p : Option (Physical n)) (scale : ℝ) : Outcome (Fin n → Flt ℝ) :=
  match p with
  | none => .err .runtime
  | some p => .ok fun k => if p.Negative then .nan else .fin (cutSmall (firstRaw p scale k))

/-- The number that `fbase` returns. -/
def fbaseValue (scale a b : ℝ) : ℝ :=
  match fbase scale a b with
  | .fin x => x
  | .nan => 0

/-- The loops over one species in `WeinbergSecondDerivativeAsMatrixXd`,
ClassPotentialOrigin.cpp:1515-1598; `C a b i j` is the real part of the product of the couplings
`[a][b][i]` and `[b][a][j]`, `C' a i j` the real part of the coupling `[a][a][i][j]`. -/
def secondSum (scale cb : ℝ) (M : Fin m → ℝ) (C : Fin m → Fin m → Fin n → Fin n → ℝ)
    (C' : Fin m → Fin n → Fin n → ℝ) (i j : Fin n) : ℝ :=
  ∑ a, ((∑ b, C a b i j * (fbaseValue scale (M a) (M b) - cb + 1 / 2)) +
    if M a ≠ 0 then M a * C' a i j * (Real.log (M a / scale ^ 2) - cb + 1 / 2) else 0)

/-- `Storage` before the comparison with `NumZero`, ClassPotentialOrigin.cpp:1515-1607. -/
def storage (p : Physical n) (scale : ℝ) : Matrix (Fin n) (Fin n) ℝ := fun i j =>
  1 / 2 * secondSum scale cCWcb p.massHiggs (fun a b i j => p.higgs3 a b i * p.higgs3 b a j)
      (fun a i j => p.higgs4 a a i j) i j +
    3 / 2 * secondSum scale cCWcbGB p.massGauge (fun a b i j => p.gauge3 a b i * p.gauge3 b a j)
      (fun a i j => p.gauge4 a a i j) i j +
    -3 * secondSum scale cCWcb p.massQuark (fun a b i j => (p.quark3 a b i * p.quark3 b a j).re)
      (fun a i j => (p.quark4 a a i j).re) i j +
    -1 * secondSum scale cCWcb p.massLepton (fun a b i j => (p.lepton3 a b i * p.lepton3 b a j).re)
      (fun a i j => (p.lepton4 a a i j).re) i j

/-- `ResMatrix` before the comparison with `NumZero`, ClassPotentialOrigin.cpp:1609-1629. -/
def secondRaw (p : Physical n) (scale : ℝ) : Matrix (Fin n) (Fin n) ℝ :=
  let T : Matrix (Fin n) (Fin n) ℝ := fun i j => cutSmall (storage p scale i j)
  fun k l => (1 / 2 * ∑ j, (∑ i, p.rot i k * (T i j + T j i)) * p.rot j l) *
    (1 / (16 * Real.pi * Real.pi))

open Classical in
/-- `WeinbergSecondDerivativeAsMatrixXd`, ClassPotentialOrigin.cpp:1497-1639; `none` if the couplings have
not been calculated. -/
def weinbergSecond (p : Option (Physical n)) (scale : ℝ) : Outcome (Fin n → Fin n → Flt ℝ) :=
  match p with
  | none => .err .runtime
  | some p => .ok fun k l => if p.Negative then .nan else .fin (cutSmall (secondRaw p scale k l))

/-- `WeinbergSecondDerivative`, ClassPotentialOrigin.cpp:1640-1654: the matrix as a vector, column by
column. -/
def weinbergSecondVector (p : Option (Physical n)) (scale : ℝ) : Outcome (List (Flt ℝ)) :=
  match weinbergSecond p scale with
  | .ok M => .ok ((List.finRange n).flatMap fun i => (List.finRange n).map fun j => M j i)
  | .err e => .err e
  | .ub u => .ub u

end

end Verif.Weinberg
