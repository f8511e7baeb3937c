import Verif.Debye.TwoDoublets

/-!
# The simplified thermal masses
-/

namespace Verif.Debye

open Verif.Yukawa Matrix

/-- The thermal mass of the first doublet with the bottom quark as the only fermion. -/
noncomputable def Spec.firstHeavy (type : Int) (mb v1 l1 l3 l4 g gs : ℝ) : ℝ :=
  (12 * l1 + 8 * l3 + 4 * l4) / 48 +
    Spec.doublet g gs (if type = 2 ∨ type = 4 then [√2 * mb / v1] else []) []

/-- The thermal mass of the second doublet with the top and the bottom quark as the only fermions. -/
noncomputable def Spec.secondHeavy (type : Int) (mt mb v2 l2 l3 l4 g gs : ℝ) : ℝ :=
  (12 * l2 + 8 * l3 + 4 * l4) / 48 +
    Spec.doublet g gs (√2 * mt / v2 :: if type = 1 ∨ type = 3 then [√2 * mb / v2] else []) []

theorem cTempC1_eq {type : Int} (ht : TwoHDM.Documented type)
    (mb v cosBeta sinBeta l1 l3 l4 g gs : ℝ) :
    cTempC1 type mb v cosBeta sinBeta l1 l3 l4 g gs =
      Spec.firstHeavy type mb (v * cosBeta) l1 l3 l4 g gs := by
  rcases ht with rfl | rfl | rfl | rfl <;>
    simp [cTempC1, bottomCoupling, Spec.firstHeavy, Spec.doublet] <;> ring

theorem cTempC2_eq {type : Int} (ht : TwoHDM.Documented type)
    (mt mb v cosBeta sinBeta l2 l3 l4 g gs : ℝ) :
    cTempC2 type mt mb v cosBeta sinBeta l2 l3 l4 g gs =
      Spec.secondHeavy type mt mb (v * sinBeta) l2 l3 l4 g gs := by
  rcases ht with rfl | rfl | rfl | rfl <;>
    simp [cTempC2, bottomCoupling, Spec.secondHeavy, Spec.doublet] <;> ring

theorem coupling_sq (m v : ℝ) : (√2 * m / v) ^ 2 = 2 * m ^ 2 / v ^ 2 := by
  rw [div_pow, mul_pow, Real.sq_sqrt (by norm_num)]

theorem difference (type : Int) (ht : TwoHDM.Documented type) (c : Constants)
    (v1 v2 l1 l2 l3 l4 g gs : ℝ) :
    Spec.firstDoublet type c v1 l1 l3 l4 g gs = Spec.firstHeavy type c.mBottom v1 l1 l3 l4 g gs +
      (if type = 2 ∨ type = 4 then (c.mDown ^ 2 + c.mStrange ^ 2) / (2 * v1 ^ 2) else 0) +
      (if type = 2 ∨ type = 3 then (c.mElectron ^ 2 + c.mMu ^ 2 + c.mTau ^ 2) / (6 * v1 ^ 2) else 0) ∧
    Spec.secondDoublet type c v2 l2 l3 l4 g gs =
      Spec.secondHeavy type c.mTop c.mBottom v2 l2 l3 l4 g gs +
      (c.mUp ^ 2 + c.mCharm ^ 2) / (2 * v2 ^ 2) +
      (if type = 1 ∨ type = 3 then (c.mDown ^ 2 + c.mStrange ^ 2) / (2 * v2 ^ 2) else 0) +
      (if type = 1 ∨ type = 4 then (c.mElectron ^ 2 + c.mMu ^ 2 + c.mTau ^ 2) / (6 * v2 ^ 2) else 0) := by
  rcases ht with rfl | rfl | rfl | rfl <;> constructor <;>
    simp [Spec.firstDoublet, Spec.secondDoublet, Spec.firstHeavy, Spec.secondHeavy, Spec.doublet,
      Spec.couplings, coupling_sq, Constants.up, Constants.down, Constants.charged] <;> ring

theorem gaugeSimplified_eq (g gs : ℝ) : gaugeSimplified g gs =
    diagonal fun a => if a = 3 then Spec.gaugeBoson 2 gs else Spec.gaugeBoson 2 g := by
  unfold gaugeSimplified
  congr 1
  funext a
  fin_cases a <;> simp [Spec.gaugeBoson] <;> ring

end Verif.Debye
