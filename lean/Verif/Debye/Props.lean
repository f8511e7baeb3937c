import Verif.Debye.HighT
import Verif.Debye.Singlets
import Verif.Debye.GaugeValues
import Verif.Debye.Compare

/-!
# Thermal masses: the properties
-/

namespace Verif.Debye

open Verif.Potential Verif.Lagrangian Verif.Spectrum Verif.Yukawa Matrix

/-! ### Scalar fields -/

/-- Standard model: the four fields of the doublet get
`λ/2 + (3 g² + g'²)/16 + 1/4 Σ y_q² + 1/12 Σ y_l²`. -/
theorem C81_sm_higgs (p : SM.Par ℝ) (g gs : ℝ) (c : Constants) (hV : c.ckm ∈ unitaryGroup (Fin 3) ℂ)
    (v : ℝ) (force : Bool) (before : Fin 4 → Fin 4 → ℝ) :
    Spec.IsDiagonal (calculateDebye 4 12 9 (SM.tree p) (SM.gauge g gs) (Yukawa.SM.quarkTensor c v)
      (Yukawa.SM.leptonTensor c v) notSimplified force before) (fun _ => p.lam / 2 + Spec.doublet g gs
        (Spec.couplings v c.up ++ Spec.couplings v c.down) (Spec.couplings v c.charged)) := by
  cases force <;> exact sm_higgs p g gs c hV v

/-- Standard model with a complex singlet: the doublet gets
`λ/8 + δ₂/24 + (3 g² + g'²)/16 + 1/4 Σ y_q² + 1/12 Σ y_l²` and the singlet `(d₂ + δ₂)/12`. -/
theorem C81_cxsm_higgs (p : CxSM.Par) (g gs : ℝ) (c : Constants)
    (hV : c.ckm ∈ unitaryGroup (Fin 3) ℂ) (v : ℝ) (force : Bool) (before : Fin 6 → Fin 6 → ℝ) :
    Spec.IsDiagonal (calculateDebye 4 12 9 (CxSM.tree p) (CxSM.gauge g gs)
      (Yukawa.CxSM.quarkTensor c v) (Yukawa.CxSM.leptonTensor c v) notSimplified force before)
      (let d := p.lam / 8 + p.delta2 / 24 + Spec.doublet g gs
        (Spec.couplings v c.up ++ Spec.couplings v c.down) (Spec.couplings v c.charged)
       let s := (p.d2 + p.delta2) / 12
       ![d, d, d, d, s, s]) := by
  cases force <;> exact cxsm_higgs p g gs c hV v

/-- CP in the Dark: all fermions couple to the first doublet, and the quartic coupling of the singlet is
`λ6 = 2 L6`. -/
theorem C81_cpinthedark_higgs (p : CPintheDark.Par ℝ) (g gs : ℝ) (c : Constants)
    (hV : c.ckm ∈ unitaryGroup (Fin 3) ℂ) (v : ℝ) (force : Bool) (before : Fin 9 → Fin 9 → ℝ) :
    Spec.IsDiagonal (calculateDebye 4 12 9 (CPintheDark.tree p) (CPintheDark.gauge g gs)
      (Yukawa.CPintheDark.quarkTensor c v) (Yukawa.CPintheDark.leptonTensor c v) notSimplified force
        before)
      (let d1 := (12 * p.L1 + 8 * p.L3 + 4 * p.L4) / 48 + p.L7 / 24 + Spec.doublet g gs
        (Spec.couplings v c.up ++ Spec.couplings v c.down) (Spec.couplings v c.charged)
       let d2 := (12 * p.L2 + 8 * p.L3 + 4 * p.L4) / 48 + p.L8 / 24 + Spec.doublet g gs [] []
       let s := (p.L7 + p.L8) / 6 + (2 * p.L6) / 8
       ![d1, d1, d2, d2, d1, d1, d2, d2, s]) := by
  cases force <;> exact cpinthedark_higgs p g gs c hV v

/-- Real two Higgs doublet model: the forced calculation gives the thermal masses with all quarks and
leptons, the default one those with only the top and the bottom quark, and it leaves the entries off the
diagonal as they were. -/
theorem C81_r2hdm_higgs (p : R2HDM.Par ℝ) (g gs : ℝ) (c : Constants)
    (hV : c.ckm ∈ unitaryGroup (Fin 3) ℂ) (cosBeta sinBeta : ℝ) (type : Int)
    (ht : TwoHDM.Documented type) (before : Fin 8 → Fin 8 → ℝ) :
    let v1 := c.vev0 * cosBeta
    let v2 := c.vev0 * sinBeta
    let debye := fun force => calculateDebye 4 12 9 (R2HDM.tree p) (R2HDM.gauge g gs)
      (TwoHDM.quarkTensor c v1 v2 type) (TwoHDM.leptonTensor c v1 v2 type)
      (simplified2HDM type c.mTop c.mBottom c.vev0 cosBeta sinBeta p.L1 p.L2 p.L3 p.L4 g gs) force
      before
    Spec.IsDiagonal (debye true)
      (let d1 := Spec.firstDoublet type c v1 p.L1 p.L3 p.L4 g gs
       let d2 := Spec.secondDoublet type c v2 p.L2 p.L3 p.L4 g gs
       ![d1, d1, d2, d2, d1, d1, d2, d2]) ∧
    (∀ i, debye false i i =
      (let d1 := Spec.firstHeavy type c.mBottom v1 p.L1 p.L3 p.L4 g gs
       let d2 := Spec.secondHeavy type c.mTop c.mBottom v2 p.L2 p.L3 p.L4 g gs
       ![d1, d1, d2, d2, d1, d1, d2, d2] i)) ∧
    ∀ i j, i ≠ j → debye false i j = before i j := by
  refine ⟨r2hdm_higgs p g gs c hV _ _ type ht, fun i => ?_, fun i j h => ?_⟩
  · simp only [calculateDebye, simplified2HDM, setDiagonal, cTempC1_eq ht, cTempC2_eq ht,
      Bool.false_eq_true, if_false, if_true]
  · simp only [calculateDebye, simplified2HDM, setDiagonal, h, Bool.false_eq_true, if_false]

/-- Complex two Higgs doublet model: the forced calculation gives the thermal masses with all quarks and
leptons, the default one those with only the top and the bottom quark, and it leaves the entries off the
diagonal as they were. -/
theorem C81_c2hdm_higgs (p : C2HDM.Par ℝ) (g gs : ℝ) (c : Constants)
    (hV : c.ckm ∈ unitaryGroup (Fin 3) ℂ) (cosBeta sinBeta : ℝ) (type : Int)
    (ht : TwoHDM.Documented type) (before : Fin 8 → Fin 8 → ℝ) :
    let v1 := c.vev0 * cosBeta
    let v2 := c.vev0 * sinBeta
    let debye := fun force => calculateDebye 4 12 9 (C2HDM.tree p) (C2HDM.gauge g gs)
      (TwoHDM.quarkTensor c v1 v2 type) (TwoHDM.leptonTensor c v1 v2 type)
      (simplified2HDM type c.mTop c.mBottom c.vev0 cosBeta sinBeta p.L1 p.L2 p.L3 p.L4 g gs) force
      before
    Spec.IsDiagonal (debye true)
      (let d1 := Spec.firstDoublet type c v1 p.L1 p.L3 p.L4 g gs
       let d2 := Spec.secondDoublet type c v2 p.L2 p.L3 p.L4 g gs
       ![d1, d1, d2, d2, d1, d1, d2, d2]) ∧
    (∀ i, debye false i i =
      (let d1 := Spec.firstHeavy type c.mBottom v1 p.L1 p.L3 p.L4 g gs
       let d2 := Spec.secondHeavy type c.mTop c.mBottom v2 p.L2 p.L3 p.L4 g gs
       ![d1, d1, d2, d2, d1, d1, d2, d2] i)) ∧
    ∀ i j, i ≠ j → debye false i j = before i j := by
  refine ⟨c2hdm_higgs p g gs c hV _ _ type ht, fun i => ?_, fun i j h => ?_⟩
  · simp only [calculateDebye, simplified2HDM, setDiagonal, cTempC1_eq ht, cTempC2_eq ht,
      Bool.false_eq_true, if_false, if_true]
  · simp only [calculateDebye, simplified2HDM, setDiagonal, h, Bool.false_eq_true, if_false]

/-- Next-to-minimal two Higgs doublet model. -/
theorem C81_n2hdm_higgs (p : N2HDM.Par ℝ) (g gs : ℝ) (c : Constants)
    (hV : c.ckm ∈ unitaryGroup (Fin 3) ℂ) (cosBeta sinBeta : ℝ) (type : Int)
    (ht : TwoHDM.Documented type) (before : Fin 9 → Fin 9 → ℝ) :
    let v1 := c.vev0 * cosBeta
    let v2 := c.vev0 * sinBeta
    let debye := fun force => calculateDebye 4 12 9 (N2HDM.tree p) (N2HDM.gauge g gs)
      (TwoHDM.quarkTensorN c v1 v2 type) (TwoHDM.leptonTensorN c v1 v2 type)
      (simplifiedN2HDM type c.mTop c.mBottom c.vev0 cosBeta sinBeta p.L1 p.L2 p.L3 p.L4 p.NL6 p.NL7
        p.NL8 g gs) force before
    let s := (p.NL7 + p.NL8) / 6 + p.NL6 / 8
    Spec.IsDiagonal (debye true)
      (let d1 := Spec.firstDoublet type c v1 p.L1 p.L3 p.L4 g gs + p.NL7 / 24
       let d2 := Spec.secondDoublet type c v2 p.L2 p.L3 p.L4 g gs + p.NL8 / 24
       ![d1, d2, d1, d2, d1, d2, d1, d2, s]) ∧
    (∀ i, debye false i i =
      (let d1 := Spec.firstHeavy type c.mBottom v1 p.L1 p.L3 p.L4 g gs + p.NL7 / 24
       let d2 := Spec.secondHeavy type c.mTop c.mBottom v2 p.L2 p.L3 p.L4 g gs + p.NL8 / 24
       ![d1, d2, d1, d2, d1, d2, d1, d2, s] i)) ∧
    ∀ i j, i ≠ j → debye false i j = before i j := by
  refine ⟨n2hdm_higgs p g gs c hV _ _ type ht, fun i => ?_, fun i j h => ?_⟩
  · have e1 : ∀ x : ℝ, 1 / 48 * (2 * x) = x / 24 := fun x => by ring
    have e2 : 1 / 6 * (p.NL7 + p.NL8) + 1 / 8 * p.NL6 = (p.NL7 + p.NL8) / 6 + p.NL6 / 8 := by ring
    simp only [calculateDebye, simplifiedN2HDM, setDiagonal, cTempC1_eq ht, cTempC2_eq ht,
      Bool.false_eq_true, if_false, if_true, e1, e2]
  · simp only [calculateDebye, simplifiedN2HDM, setDiagonal, h, Bool.false_eq_true, if_false]

/-- The difference between the two calculations: the light quarks and the charged leptons. -/
theorem C81_simplified_difference (type : Int) (ht : TwoHDM.Documented type) (c : Constants)
    (v1 v2 l1 l2 l3 l4 g gs : ℝ) :
    Spec.firstDoublet type c v1 l1 l3 l4 g gs = Spec.firstHeavy type c.mBottom v1 l1 l3 l4 g gs +
      (if type = 2 ∨ type = 4 then (c.mDown ^ 2 + c.mStrange ^ 2) / (2 * v1 ^ 2) else 0) +
      (if type = 2 ∨ type = 3 then (c.mElectron ^ 2 + c.mMu ^ 2 + c.mTau ^ 2) / (6 * v1 ^ 2) else 0) ∧
    Spec.secondDoublet type c v2 l2 l3 l4 g gs =
      Spec.secondHeavy type c.mTop c.mBottom v2 l2 l3 l4 g gs +
      (c.mUp ^ 2 + c.mCharm ^ 2) / (2 * v2 ^ 2) +
      (if type = 1 ∨ type = 3 then (c.mDown ^ 2 + c.mStrange ^ 2) / (2 * v2 ^ 2) else 0) +
      (if type = 1 ∨ type = 4 then (c.mElectron ^ 2 + c.mMu ^ 2 + c.mTau ^ 2) / (6 * v2 ^ 2) else 0) :=
  difference type ht c v1 v2 l1 l2 l3 l4 g gs

/-- The default calculation misses contributions: with massive charm quarks the second doublet of the
real two Higgs doublet model gets a smaller thermal mass than in the general calculation, for all other
parameters. -/
theorem C81_simplified_fails (p : R2HDM.Par ℝ) (g gs : ℝ) (c : Constants)
    (hV : c.ckm ∈ unitaryGroup (Fin 3) ℂ) (cosBeta sinBeta : ℝ) (type : Int)
    (ht : TwoHDM.Documented type) (before : Fin 8 → Fin 8 → ℝ) (hv : c.vev0 * sinBeta ≠ 0)
    (hc : c.mCharm ≠ 0)
    (hl : 1 / 10 ^ 5 < Spec.secondDoublet type c (c.vev0 * sinBeta) p.L2 p.L3 p.L4 g gs) :
    let debye := fun force => calculateDebye 4 12 9 (R2HDM.tree p) (R2HDM.gauge g gs)
      (TwoHDM.quarkTensor c (c.vev0 * cosBeta) (c.vev0 * sinBeta) type)
      (TwoHDM.leptonTensor c (c.vev0 * cosBeta) (c.vev0 * sinBeta) type)
      (simplified2HDM type c.mTop c.mBottom c.vev0 cosBeta sinBeta p.L1 p.L2 p.L3 p.L4 g gs) force
      before
    debye false 2 2 < debye true 2 2 := by
  intro debye
  obtain ⟨h1, h2, -⟩ := C81_r2hdm_higgs p g gs c hV cosBeta sinBeta type ht before
  have e1 : debye true 2 2 = Spec.secondDoublet type c (c.vev0 * sinBeta) p.L2 p.L3 p.L4 g gs :=
    (h1.1 2).2 (lt_of_lt_of_le hl (le_abs_self _))
  have e2 : debye false 2 2 =
      Spec.secondHeavy type c.mTop c.mBottom (c.vev0 * sinBeta) p.L2 p.L3 p.L4 g gs := h2 2
  rw [e1, e2, (C81_simplified_difference type ht c (c.vev0 * cosBeta) (c.vev0 * sinBeta) p.L1 p.L2 p.L3
    p.L4 g gs).2]
  have p0 : 0 < (c.mUp ^ 2 + c.mCharm ^ 2) / (2 * (c.vev0 * sinBeta) ^ 2) := by positivity
  have p1 : 0 ≤ if type = 1 ∨ type = 3 then
      (c.mDown ^ 2 + c.mStrange ^ 2) / (2 * (c.vev0 * sinBeta) ^ 2) else 0 := by
    split_ifs <;> positivity
  have p2 : 0 ≤ if type = 1 ∨ type = 4 then
      (c.mElectron ^ 2 + c.mMu ^ 2 + c.mTau ^ 2) / (6 * (c.vev0 * sinBeta) ^ 2) else 0 := by
    split_ifs <;> positivity
  linarith

/-! ### Gauge bosons -/

/-- Standard model: `11/6 g²` and `11/6 g'²`; without the coupling `g` the program divides
by zero, whatever `g'` is. -/
theorem C81_sm_gauge (g gs : ℝ) :
    (g = 0 → calculateDebyeGauge 4 4 (SM.gauge g gs) none = none) ∧
    (g ≠ 0 → ∃ D, calculateDebyeGauge 4 4 (SM.gauge g gs) none = some D ∧
      Spec.IsDiagonal D
        (fun a => if a = 3 then Spec.gaugeBoson 1 gs else Spec.gaugeBoson 1 g)) :=
  gauge_values g gs _ Finset.univ 1 (by decide) (by decide) (sm_gauge_values g gs)

/-- Standard model with a complex singlet: `11/6 g²` and `11/6 g'²`, the singlet does not change them; without the coupling `g` the program divides
by zero, whatever `g'` is. -/
theorem C81_cxsm_gauge (g gs : ℝ) :
    (g = 0 → calculateDebyeGauge 4 6 (CxSM.gauge g gs) none = none) ∧
    (g ≠ 0 → ∃ D, calculateDebyeGauge 4 6 (CxSM.gauge g gs) none = some D ∧
      Spec.IsDiagonal D
        (fun a => if a = 3 then Spec.gaugeBoson 1 gs else Spec.gaugeBoson 1 g)) :=
  gauge_values g gs _ {0, 1, 2, 3} 1 (by decide) (by decide) (cxsm_gauge_values g gs)

/-- CP in the Dark: `2 g²` and `2 g'²`; without the coupling `g` the program divides
by zero, whatever `g'` is. -/
theorem C81_cpinthedark_gauge (g gs : ℝ) :
    (g = 0 → calculateDebyeGauge 4 9 (CPintheDark.gauge g gs) none = none) ∧
    (g ≠ 0 → ∃ D, calculateDebyeGauge 4 9 (CPintheDark.gauge g gs) none = some D ∧
      Spec.IsDiagonal D
        (fun a => if a = 3 then Spec.gaugeBoson 2 gs else Spec.gaugeBoson 2 g)) :=
  gauge_values g gs _ {0, 1, 2, 3, 4, 5, 6, 7} 2 (by decide) (by decide) (cpinthedark_gauge_values g gs)

/-- R2HDM: `2 g²` and `2 g'²` for all couplings, and the general calculation, where it is defined,
differs from this only in the removal of small values. -/
theorem C81_r2hdm_gauge (g gs : ℝ) :
    calculateDebyeGauge 4 8 (R2HDM.gauge g gs) (some (gaugeSimplified g gs)) =
      some (diagonal fun a => if a = 3 then Spec.gaugeBoson 2 gs else Spec.gaugeBoson 2 g) ∧
    (g ≠ 0 → ∃ D, calculateDebyeGauge 4 8 (R2HDM.gauge g gs) none = some D ∧
      Spec.IsDiagonal D
        (fun a => if a = 3 then Spec.gaugeBoson 2 gs else Spec.gaugeBoson 2 g)) :=
  ⟨congrArg some (gaugeSimplified_eq g gs),
    (gauge_values g gs _ Finset.univ 2 (by decide) (by decide) (r2hdm_gauge_values g gs)).2⟩

/-- C2HDM: `2 g²` and `2 g'²` for all couplings, and the general calculation, where it is defined,
differs from this only in the removal of small values. -/
theorem C81_c2hdm_gauge (g gs : ℝ) :
    calculateDebyeGauge 4 8 (C2HDM.gauge g gs) (some (gaugeSimplified g gs)) =
      some (diagonal fun a => if a = 3 then Spec.gaugeBoson 2 gs else Spec.gaugeBoson 2 g) ∧
    (g ≠ 0 → ∃ D, calculateDebyeGauge 4 8 (C2HDM.gauge g gs) none = some D ∧
      Spec.IsDiagonal D
        (fun a => if a = 3 then Spec.gaugeBoson 2 gs else Spec.gaugeBoson 2 g)) :=
  ⟨congrArg some (gaugeSimplified_eq g gs),
    (gauge_values g gs _ Finset.univ 2 (by decide) (by decide) (c2hdm_gauge_values g gs)).2⟩

/-- N2HDM: `2 g²` and `2 g'²` for all couplings, and the general calculation, where it is defined,
differs from this only in the removal of small values. -/
theorem C81_n2hdm_gauge (g gs : ℝ) :
    calculateDebyeGauge 4 9 (N2HDM.gauge g gs) (some (gaugeSimplified g gs)) =
      some (diagonal fun a => if a = 3 then Spec.gaugeBoson 2 gs else Spec.gaugeBoson 2 g) ∧
    (g ≠ 0 → ∃ D, calculateDebyeGauge 4 9 (N2HDM.gauge g gs) none = some D ∧
      Spec.IsDiagonal D
        (fun a => if a = 3 then Spec.gaugeBoson 2 gs else Spec.gaugeBoson 2 g)) :=
  ⟨congrArg some (gaugeSimplified_eq g gs),
    (gauge_values g gs _ {0, 1, 2, 3, 4, 5, 6, 7} 2 (by decide) (by decide) (n2hdm_gauge_values g gs)).2⟩

/-- The hypotheses are met by the constants of the program. -/
example : (getSMConstants numbers).ckm ∈ unitaryGroup (Fin 3) ℂ ∧ TwoHDM.Documented 4 :=
  ⟨C79_ckm_unitary numbers, .inr (.inr (.inr rfl))⟩

end Verif.Debye
