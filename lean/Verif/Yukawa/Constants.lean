import Mathlib.Analysis.SpecialFunctions.Trigonometric.Inverse
import Mathlib.Analysis.SpecialFunctions.Complex.Arg
import Mathlib.Analysis.SpecialFunctions.Sqrt
import Mathlib.LinearAlgebra.Matrix.Notation
import Mathlib.LinearAlgebra.UnitaryGroup

/-!
# The constants of the standard model

`ISMConstants` and `GetSMConstants`, SMParam.cpp:5-62.
-/

namespace Verif.Yukawa

open Complex
open scoped ComplexConjugate

/-- The members of `ISMConstants` used by the models, SMparam.h:22-223. -/
structure Constants where
  mW : ℝ
  mZ : ℝ
  mUp : ℝ
  mCharm : ℝ
  mTop : ℝ
  mDown : ℝ
  mStrange : ℝ
  mBottom : ℝ
  mElectron : ℝ
  mMu : ℝ
  mTau : ℝ
  V11 : ℂ
  V12 : ℂ
  V13 : ℂ
  V21 : ℂ
  V22 : ℂ
  V23 : ℂ
  V31 : ℂ
  V32 : ℂ
  V33 : ℂ
  vev0 : ℝ
  g : ℝ
  gs : ℝ

/-- The CKM matrix `V11 = C_Vud, V12 = C_Vus, V13 = C_Vub, V21 = C_Vcd, …`, e.g.
ClassPotentialSM.cpp:446-455. -/
def Constants.ckm (c : Constants) : Matrix (Fin 3) (Fin 3) ℂ :=
  !![c.V11, c.V12, c.V13; c.V21, c.V22, c.V23; c.V31, c.V32, c.V33]

/-- The masses of the up-type quarks. -/
def Constants.up (c : Constants) : Fin 3 → ℝ := ![c.mUp, c.mCharm, c.mTop]

/-- The masses of the down-type quarks. -/
def Constants.down (c : Constants) : Fin 3 → ℝ := ![c.mDown, c.mStrange, c.mBottom]

/-- The masses of the charged leptons. -/
def Constants.charged (c : Constants) : Fin 3 → ℝ := ![c.mElectron, c.mMu, c.mTau]

/-- The angles of the CKM matrix. -/
structure Angles where
  theta12 : ℝ
  theta13 : ℝ
  theta23 : ℝ
  delta : ℝ

/-- The angles from the Wolfenstein parameters, SMParam.cpp:12-20. -/
noncomputable def wolfenstein (lam A rho eta : ℝ) : Angles where
  theta12 := Real.arcsin lam
  theta23 := Real.arcsin (A * lam ^ 2)
  delta := arg (A * lam ^ 3 * (rho + I * eta))
  theta13 := Real.arcsin ‖(A * lam ^ 3 * (rho + I * eta) : ℂ)‖

/-- What `GetSMConstants` is written for: the numbers of SMParam.cpp:8-11 and 37-49. -/
structure Numbers where
  lam : ℝ
  A : ℝ
  rho : ℝ
  eta : ℝ
  mW : ℝ
  mZ : ℝ
  mUp : ℝ
  mCharm : ℝ
  mTop : ℝ
  mDown : ℝ
  mStrange : ℝ
  mBottom : ℝ
  mElectron : ℝ
  mMu : ℝ
  mTau : ℝ
  GF : ℝ

/-- `GetSMConstants`, SMParam.cpp:5-62, as a function of the numbers in it. -/
noncomputable def getSMConstants (x : Numbers) : Constants :=
  let a := wolfenstein x.lam x.A x.rho x.eta
  let v := √(1 / √2 * 1 / x.GF)
  { mW := x.mW, mZ := x.mZ, mUp := x.mUp, mCharm := x.mCharm, mTop := x.mTop, mDown := x.mDown,
    mStrange := x.mStrange, mBottom := x.mBottom, mElectron := x.mElectron, mMu := x.mMu,
    mTau := x.mTau
    V11 := Real.cos a.theta12 * Real.cos a.theta13
    V12 := Real.sin a.theta12 * Real.cos a.theta13
    V13 := Real.sin a.theta13 * exp (-a.delta * I)
    V21 := -Real.sin a.theta12 * Real.cos a.theta23 -
      Real.cos a.theta12 * Real.sin a.theta23 * Real.sin a.theta13 * exp (I * a.delta)
    V22 := Real.cos a.theta12 * Real.cos a.theta23 -
      Real.sin a.theta12 * Real.sin a.theta23 * Real.sin a.theta13 * exp (I * a.delta)
    V23 := Real.sin a.theta23 * Real.cos a.theta13
    V31 := Real.sin a.theta12 * Real.sin a.theta23 -
      Real.cos a.theta12 * Real.cos a.theta23 * Real.sin a.theta13 * exp (I * a.delta)
    V32 := -Real.cos a.theta12 * Real.sin a.theta23 -
      Real.sin a.theta12 * Real.cos a.theta23 * Real.sin a.theta13 * exp (I * a.delta)
    V33 := Real.cos a.theta23 * Real.cos a.theta13
    vev0 := v
    g := 2 * x.mW / v
    gs := 2 * √(x.mZ ^ 2 - x.mW ^ 2) / v }

/-- The numbers of SMParam.cpp:8-11 and 37-49. -/
noncomputable def numbers : Numbers where
  lam := 0.22537
  A := 0.814
  rho := 0.117
  eta := 0.353
  mW := 80.385
  mZ := 91.1876
  mUp := 0.1
  mCharm := 1.51
  mTop := 172.5
  mDown := 0.1
  mStrange := 0.1
  mBottom := 4.92
  mElectron := 0.510998928 * 10 ^ (-3 : ℤ)
  mMu := 0.1056583715
  mTau := 1.77682
  GF := 1.1663787 * 1e-5

end Verif.Yukawa
