import Verif.GW.Spec
import Mathlib.Analysis.MeanInequalities
import Mathlib.Tactic.Linarith
import Mathlib.Tactic.FieldSimp
import Mathlib.Tactic.Positivity

/-!
# C29, C58, C60, C61: gravitational waves
-/

namespace Verif.GW

open Verif Verif.Tracer

/-! ### The terms of the spectrum -/

theorem swTerm_eq (amp peak f : ℝ) (h : peak ≠ 0) :
    swTerm amp peak f = .fin (amp * soundShape (f / peak)) := by
  rw [swTerm, if_neg h]
  congr 1
  generalize f / peak = x
  have hx : 0 < 1 + 3 / 4 * x ^ 2 := by positivity
  have e : (7 / (4 + 3 * x ^ 2)) = ((4 / 7) * (1 + 3 / 4 * x ^ 2))⁻¹ := by
    field_simp
  rw [soundShape, e, Real.inv_rpow (by positivity), Real.mul_rpow (by norm_num) hx.le,
    neg_div, Real.rpow_neg (by norm_num), Real.rpow_neg hx.le, mul_inv]
  ring

theorem turbTerm_eq (amp peak hstar f : ℝ) (h : peak ≠ 0) :
    turbTerm amp peak hstar f = .fin (amp * turbShape 3 (f / peak) (f / hstar)) := by
  rw [turbTerm, if_neg h]
  congr 1
  rw [turbShape, show (11 / 3 : Nat) = 3 from rfl]
  rw [show (3 : ℝ) = ((3 : Nat) : ℝ) by norm_num, Real.rpow_natCast, div_div, mul_div_assoc,
    mul_div_assoc (8 * Real.pi)]

theorem freqSw_pos (d : Data) (h : Physical d) : 0 < freqSw d := by
  have h1 := h.hr
  have h2 := h.temp
  have h3 := h.gstar
  unfold freqSw
  positivity

theorem freqTurb_pos (d : Data) (h : Physical d) : 0 < freqTurb d := by
  have h1 := h.hr
  have h2 := h.temp
  have h3 := h.gstar
  unfold freqTurb
  positivity

/-! ### C29 -/

/-- The same physical parameters. -/
def SameParams (d d' : Data) : Prop :=
  d.transTemp = d'.transTemp ∧ d.kSw = d'.kSw ∧ d.hr = d'.hr ∧ d.kTurb = d'.kTurb ∧
    d.gstar = d'.gstar ∧ d.hstar = d'.hstar

/-- The stored peaks are those of the parameters of `p`. -/
def Settled (p d : Data) : Prop :=
  SameParams d p ∧ d.fSw = freqSw p ∧ d.oSw = ampSw p ∧ d.fTurb = freqTurb p ∧ d.oTurb = ampTurb p

theorem SameParams.freqSw {d d' : Data} (h : SameParams d d') : GW.freqSw d = GW.freqSw d' := by
  obtain ⟨h1, h2, h3, h4, h5, h6⟩ := h
  simp [GW.freqSw, h1, h3, h5]

theorem SameParams.ampSw {d d' : Data} (h : SameParams d d') : GW.ampSw d = GW.ampSw d' := by
  obtain ⟨h1, h2, h3, h4, h5, h6⟩ := h
  simp [GW.ampSw, h2, h3, h5]

theorem SameParams.freqTurb {d d' : Data} (h : SameParams d d') : GW.freqTurb d = GW.freqTurb d' := by
  obtain ⟨h1, h2, h3, h4, h5, h6⟩ := h
  simp [GW.freqTurb, h1, h3, h5]

theorem SameParams.ampTurb {d d' : Data} (h : SameParams d d') : GW.ampTurb d = GW.ampTurb d' := by
  obtain ⟨h1, h2, h3, h4, h5, h6⟩ := h
  simp [GW.ampTurb, h3, h4, h5]

theorem settled_swPart {p d : Data} (h : Settled p d) (f : ℝ) :
    Settled p (swPart d f).2 ∧ (swPart d f).2.swON = d.swON ∧ (swPart d f).2.turbON = d.turbON := by
  obtain ⟨h0, h1, h2, h3, h4⟩ := h
  unfold swPart
  dsimp only
  split
  · exact ⟨⟨h0, h1, h0.ampSw, h3, h4⟩, rfl, rfl⟩
  · split
    · exact ⟨⟨h0, h0.freqSw, h2, h3, h4⟩, rfl, rfl⟩
    · exact ⟨⟨h0, h1, h2, h3, h4⟩, rfl, rfl⟩

theorem settled_turbPart {p d : Data} (h : Settled p d) (f : ℝ) :
    Settled p (turbPart d f).2 ∧ (turbPart d f).2.swON = d.swON ∧
      (turbPart d f).2.turbON = d.turbON := by
  obtain ⟨h0, h1, h2, h3, h4⟩ := h
  unfold turbPart
  dsimp only
  split
  · exact ⟨⟨h0, h1, h2, h3, h0.ampTurb⟩, rfl, rfl⟩
  · split
    · exact ⟨⟨h0, h1, h2, h0.freqTurb, h4⟩, rfl, rfl⟩
    · exact ⟨⟨h0, h1, h2, h3, h4⟩, rfl, rfl⟩

theorem swPart_value {p d : Data} (h : Settled p d) (f : ℝ) :
    (swPart d f).1 = swTerm (ampSw p) (freqSw p) f := by
  have := (settled_swPart h f).1
  obtain ⟨-, h1, h2, -, -⟩ := this
  rw [← h1, ← h2]
  rfl

theorem turbPart_value {p d : Data} (h : Settled p d) (f : ℝ) :
    (turbPart d f).1 = turbTerm (ampTurb p) (freqTurb p) p.hstar f := by
  have := (settled_turbPart h f).1
  obtain ⟨h0, -, -, h1, h2⟩ := this
  rw [← h1, ← h2, ← h0.2.2.2.2.2]
  rfl

theorem settled_amplitude {p d : Data} (h : Settled p d) (f : ℝ) (sw turb : Bool) :
    Settled p (amplitude d f sw turb).2 := by
  unfold amplitude
  cases sw <;> cases turb <;> simp only [if_true, if_false, Bool.false_eq_true]
  · exact h
  · exact (settled_turbPart h f).1
  · exact (settled_swPart h f).1
  · exact (settled_turbPart (settled_swPart h f).1 f).1

theorem settled_call {p d : Data} (h : Settled p d) (c : Call) : Settled p (call d c) := by
  cases c with
  | freqSw => exact ⟨h.1, h.1.freqSw, h.2.2.1, h.2.2.2.1, h.2.2.2.2⟩
  | ampSw => exact ⟨h.1, h.2.1, h.1.ampSw, h.2.2.2.1, h.2.2.2.2⟩
  | freqTurb => exact ⟨h.1, h.2.1, h.2.2.1, h.1.freqTurb, h.2.2.2.2⟩
  | ampTurb => exact ⟨h.1, h.2.1, h.2.2.1, h.2.2.2.1, h.1.ampTurb⟩
  | amplitude f sw turb => exact settled_amplitude h f sw turb
  | switches sw turb => exact h
  | snr fs =>
    have key : ∀ (fs : List ℝ) (d : Data), Settled p d →
        Settled p (fs.foldl (fun d f => (amplitude d f d.swON d.turbON).2) d) := by
      intro fs
      induction fs with
      | nil => intro d h; exact h
      | cons f fs ih => intro d h; exact ih _ (settled_amplitude h f _ _)
    exact key fs d h

theorem amplitude_settled {p d : Data} (hp : Physical p) (h : Settled p d) (f : ℝ) (sw turb : Bool) :
    (amplitude d f sw turb).1 =
      .fin (spectrum 3 (ampSw p) (freqSw p) (ampTurb p) (freqTurb p) p.hstar f sw turb) := by
  have e1 := swTerm_eq (ampSw p) (freqSw p) f (ne_of_gt (freqSw_pos p hp))
  have e2 := turbTerm_eq (ampTurb p) (freqTurb p) p.hstar f (ne_of_gt (freqTurb_pos p hp))
  unfold amplitude spectrum
  cases sw <;> cases turb <;> simp only [if_true, if_false, Bool.false_eq_true]
  · simp
  · rw [turbPart_value h, e2]; simp [fadd]
  · rw [swPart_value h, e1]; simp [fadd]
  · rw [swPart_value h, turbPart_value (settled_swPart h f).1, e1, e2]; simp [fadd]

/-- The four calls the transition tracer makes before anything else. -/
def peakCalls : List Call := [.freqSw, .ampSw, .freqTurb, .ampTurb]

theorem settled_peaks (d : Data) : Settled d (peakCalls.foldl call d) :=
  ⟨⟨rfl, rfl, rfl, rfl, rfl, rfl⟩, rfl, rfl, rfl, rfl⟩

/-- **C29** (partial: after the peaks were calculated explicitly, see `C29_first_call`) Whatever calls
follow, the amplitude at a frequency is the same function of the data. -/
theorem C29_after_peaks_partial (d : Data) (hd : Physical d) (cs : List Call) (f : ℝ) (sw turb : Bool) :
    (amplitude (cs.foldl call (peakCalls.foldl call d)) f sw turb).1 =
      .fin (spectrum 3 (ampSw d) (freqSw d) (ampTurb d) (freqTurb d) d.hstar f sw turb) := by
  refine amplitude_settled hd ?_ f sw turb
  have key : ∀ (cs : List Call) (e : Data), Settled d e → Settled d (cs.foldl call e) := by
    intro cs
    induction cs with
    | nil => intro e h; exact h
    | cons c cs ih => intro e h; exact ih _ (settled_call h c)
  exact key cs _ (settled_peaks d)

/-- An object just constructed: no peaks known. -/
def Fresh (d : Data) : Prop := d.fSw = 0 ∧ d.oSw = 0 ∧ d.fTurb = 0 ∧ d.oTurb = 0

/-- **C29** (failure) On a fresh object the first amplitude is NaN, the second call with the same
arguments gives the spectrum. -/
theorem C29_first_call (d : Data) (hd : Physical d) (hf : Fresh d) (ha : ampSw d ≠ 0) (f : ℝ) :
    (amplitude d f true false).1 = .nan ∧
    (amplitude (call d (.amplitude f true false)) f true false).1 =
      .fin (spectrum 3 (ampSw d) (freqSw d) (ampTurb d) (freqTurb d) d.hstar f true false) := by
  obtain ⟨h1, h2, h3, h4⟩ := hf
  have e1 := swTerm_eq (ampSw d) (freqSw d) f (ne_of_gt (freqSw_pos d hd))
  have hstep : (swPart d f).2 = { d with oSw := ampSw d } := by simp [swPart, h2]
  constructor
  · simp [amplitude, swPart, h1, h2, swTerm, fadd]
  · have : (amplitude d f true false).2 = { d with oSw := ampSw d } := by
      simp [amplitude, hstep]
    simp only [call, this]
    have hv : (swPart { d with oSw := ampSw d } f).1 = swTerm (ampSw d) (freqSw d) f := by
      simp only [swPart, ha, h1, if_true, if_false]
      rfl
    simp only [amplitude, hv, e1, spectrum, if_true, if_false, Bool.false_eq_true]
    simp [fadd]

/-- **C29** (failure) Without turbulence (`kTurb = 0`, which the input `epsturb = 0` requests) a fresh
object gives NaN instead of zero on every call that asks for the turbulence part. -/
theorem C29_zero_turbulence (d : Data) (hf : Fresh d) (hk : d.kTurb = 0) (fs : List ℝ) (f : ℝ) (sw : Bool) :
    (amplitude ((fs.map fun f => Call.amplitude f false true).foldl call d) f sw true).1 = .nan := by
  have ha : ∀ e : Data, e.kTurb = 0 → ampTurb e = 0 := by
    intro e he
    simp [ampTurb, he, Real.zero_rpow (show (3 / 2 : ℝ) ≠ 0 by norm_num)]
  have key : ∀ (fs : List ℝ) (e : Data), (e.fTurb = 0 ∧ e.oTurb = 0 ∧ e.kTurb = 0) →
      (let e' := (fs.map fun f => Call.amplitude f false true).foldl call e
       e'.fTurb = 0 ∧ e'.oTurb = 0 ∧ e'.kTurb = 0) := by
    intro fs
    induction fs with
    | nil => intro e h; exact h
    | cons f fs ih =>
      intro e h
      refine ih _ ?_
      simp only [call, amplitude, turbPart, h.2.1, if_true, if_false, Bool.false_eq_true]
      exact ⟨h.1, ha e h.2.2, h.2.2⟩
  obtain ⟨h1, h2, h3⟩ := key fs d ⟨hf.2.2.1, hf.2.2.2, hk⟩
  generalize (fs.map fun f => Call.amplitude f false true).foldl call d = e at *
  have hnan : ∀ e : Data, (e.fTurb = 0 ∧ e.oTurb = 0) → (turbPart e f).1 = .nan := by
    intro e h
    simp [turbPart, turbTerm, h.1, h.2]
  have hadd : ∀ a, fadd a .nan = .nan := by intro a; cases a <;> rfl
  unfold amplitude
  simp only [if_true]
  rw [hnan, hadd]
  cases sw
  · exact ⟨h1, h2⟩
  · simp only [if_true, swPart]
    split
    · exact ⟨h1, h2⟩
    · split
      · exact ⟨h1, h2⟩
      · exact ⟨h1, h2⟩

/-- A fresh object with data as for a transition at 100 GeV. -/
noncomputable def exData : Data :=
  { transTemp := 100, hr := 3 / 100, kSw := 3, kTurb := 1 / 100, gstar := 100, hstar := 1 / 10 ^ 14 }

example : Physical exData ∧ Fresh exData ∧ ampSw exData ≠ 0 := by
  refine ⟨⟨by norm_num [exData], by norm_num [exData], by norm_num [exData], by norm_num [exData]⟩,
    ⟨rfl, rfl, rfl, rfl⟩, ne_of_gt ?_⟩
  unfold ampSw exData
  dsimp only
  have : (0 : ℝ) < if turnoverOne (3 / 100) 3 then (3 / 100) * 3 ^ 2
      else 2 / Real.sqrt 3 * (3 / 100) ^ 2 * 3 ^ (3 / 2 : ℝ) := by
    split <;> positivity
  positivity

example : Fresh { exData with kTurb := 0 } := ⟨rfl, rfl, rfl, rfl⟩

/-! ### C58 -/

/-- **C58** The sound-wave spectrum has its maximum, the peak amplitude, at the peak frequency. -/
theorem C58_sound_peak (amp peak f : ℝ) (ha : 0 ≤ amp) (hp : 0 < peak) (hf : 0 ≤ f) :
    swTerm amp peak peak = .fin amp ∧ ∃ s, swTerm amp peak f = .fin s ∧ 0 ≤ s ∧ s ≤ amp := by
  rw [swTerm_eq _ _ _ (ne_of_gt hp), swTerm_eq _ _ _ (ne_of_gt hp), div_self (ne_of_gt hp)]
  constructor
  · congr 1
    norm_num [soundShape]
  · refine ⟨_, rfl, ?_, ?_⟩
    · unfold soundShape; positivity
    · have hx : 0 ≤ f / peak := by positivity
      generalize f / peak = x at hx
      have key : soundShape x ≤ 1 := by
        unfold soundShape
        have hg := Real.geom_mean_le_arith_mean2_weighted (w₁ := 4 / 7) (w₂ := 3 / 7) (p₁ := 1)
          (p₂ := x ^ 2) (by norm_num) (by norm_num) (by norm_num) (by positivity) (by norm_num)
        rw [Real.one_rpow, one_mul, mul_one] at hg
        have hg2 := Real.rpow_le_rpow (by positivity) hg (show (0 : ℝ) ≤ 7 / 2 by norm_num)
        rw [← Real.rpow_mul (by positivity)] at hg2
        have e1 : (x ^ 2) ^ ((3 / 7 : ℝ) * (7 / 2)) = x ^ 3 := by
          rw [← Real.rpow_natCast x 2, ← Real.rpow_mul hx, ← Real.rpow_natCast x 3]
          norm_num
        rw [e1] at hg2
        have hpos : (0 : ℝ) < 4 / 7 + 3 / 7 * x ^ 2 := by positivity
        have e2 : (7 / (4 + 3 * x ^ 2)) = (4 / 7 + 3 / 7 * x ^ 2)⁻¹ := by field_simp
        rw [e2, Real.inv_rpow hpos.le, ← div_eq_mul_inv, div_le_one (by positivity)]
        exact hg2
      calc amp * soundShape x ≤ amp * 1 := mul_le_mul_of_nonneg_left key ha
        _ = amp := mul_one _

/-- **C58** (failure) The turbulence spectrum is to fall off with the power 11/3.  The exponent in the
code is an integer division, so at every frequency the code's value is the documented one times
`(1 + f / peak) ^ (2/3)`, and larger. -/
theorem C58_turbulence_power (amp peak hstar f : ℝ) (ha : 0 < amp) (hp : 0 < peak) (hh : 0 < hstar)
    (hf : 0 < f) :
    ∃ s, turbTerm amp peak hstar f = .fin s ∧
      s = amp * turbShape (11 / 3) (f / peak) (f / hstar) * (1 + f / peak) ^ (2 / 3 : ℝ) ∧
      amp * turbShape (11 / 3) (f / peak) (f / hstar) < s := by
  have hpi := Real.pi_pos
  have hx : 0 < f / peak := by positivity
  have hy : 0 < f / hstar := by positivity
  have e : amp * turbShape 3 (f / peak) (f / hstar) =
      amp * turbShape (11 / 3) (f / peak) (f / hstar) * (1 + f / peak) ^ (2 / 3 : ℝ) := by
    unfold turbShape
    have h1 : (1 + f / peak) ^ (11 / 3 : ℝ) = (1 + f / peak) ^ (3 : ℝ) * (1 + f / peak) ^ (2 / 3 : ℝ) := by
      rw [← Real.rpow_add (by positivity)]; norm_num
    rw [h1]
    have h2 : 0 < (1 + f / peak) ^ (2 / 3 : ℝ) := by positivity
    have h3 : 0 < (1 + f / peak) ^ (3 : ℝ) := by positivity
    have h4 : 0 < 1 + 8 * Real.pi * (f / hstar) := by positivity
    generalize (1 + f / peak) ^ (2 / 3 : ℝ) = a at *
    generalize (1 + f / peak) ^ (3 : ℝ) = b at *
    generalize 1 + 8 * Real.pi * (f / hstar) = c at *
    generalize (f / peak) ^ 3 = z at *
    field_simp
  refine ⟨_, turbTerm_eq amp peak hstar f (ne_of_gt hp), e, ?_⟩
  rw [e]
  have h1 : 1 < (1 + f / peak) ^ (2 / 3 : ℝ) :=
    Real.one_lt_rpow (by linarith) (by norm_num)
  have h2 : 0 < amp * turbShape (11 / 3) (f / peak) (f / hstar) := by
    unfold turbShape; positivity
  exact lt_mul_of_one_lt_right h2 h1

/-- **C58** (observation) The Hubble rate in the last factor of the turbulence spectrum is the one at the
transition in GeV, while frequencies and peaks are today's in Hz: the red-shifted Hubble rate
`1.65e-5 Hz (T/100 GeV) (g/100)^(1/6)` is more than `10 ^ 7` times as large for transitions below
1 TeV. -/
theorem C58_hubble_units (g t : ℝ) (hg : 100 ≤ g) (hg' : g ≤ 200) (ht : 0 < t) (ht' : t ≤ 1000) :
    10 ^ 7 * (Real.pi * Real.sqrt g / Real.sqrt 90 * t ^ 2 / 2.4e18) <
      1.65e-5 * (t / 100) * (g / 100) ^ (1 / 6 : ℝ) := by
  have h1 : (1 : ℝ) ≤ (g / 100) ^ (1 / 6 : ℝ) :=
    Real.one_le_rpow (by linarith) (by norm_num)
  have h2 : Real.sqrt g / Real.sqrt 90 ≤ 2 := by
    rw [← Real.sqrt_div (by linarith), show (2 : ℝ) = Real.sqrt 4 by
      rw [show (4 : ℝ) = 2 ^ 2 by norm_num, Real.sqrt_sq (by norm_num)]]
    apply Real.sqrt_le_sqrt
    linarith
  have h3 : Real.pi * Real.sqrt g / Real.sqrt 90 ≤ 8 := by
    rw [mul_div_assoc]
    calc Real.pi * (Real.sqrt g / Real.sqrt 90) ≤ 4 * 2 :=
          mul_le_mul Real.pi_le_four h2 (by positivity) (by norm_num)
      _ = 8 := by norm_num
  have h4 : t ^ 2 ≤ 1000 * t := by nlinarith
  calc 10 ^ 7 * (Real.pi * Real.sqrt g / Real.sqrt 90 * t ^ 2 / 2.4e18)
      ≤ 10 ^ 7 * (8 * (1000 * t) / 2.4e18) := by gcongr
    _ < 1.65e-5 * (t / 100) * 1 := by norm_num; linarith
    _ ≤ 1.65e-5 * (t / 100) * (g / 100) ^ (1 / 6 : ℝ) := by gcongr

/-- **C58** The sensitivity is positive at every positive frequency, so the integrand of the SNR is
defined and never negative, and so is the SNR. -/
theorem C58_snr (amp f years integral : ℝ) (hf : 0 < f) :
    0 < h2OmSens f ∧ 0 ≤ snrIntegrand amp f ∧ 0 ≤ snr years integral ∧
    (0 ≤ years → 0 ≤ integral → snr years integral ^ 2 = 86400 * 365.25 * years * integral) := by
  have hpi := Real.pi_pos
  refine ⟨?_, ?_, Real.sqrt_nonneg _, ?_⟩
  · unfold h2OmSens powSpec siFunc rFunc; positivity
  · unfold snrIntegrand; positivity
  · intro h1 h2
    rw [snr, Real.sq_sqrt (by positivity)]

/-! ### C60 -/

theorem denomA_pos (alpha : ℝ) (ha : 0 < alpha) : 0 < 1.36 - 0.037 * Real.sqrt alpha + alpha := by
  have h := Real.sq_sqrt ha.le
  nlinarith [sq_nonneg (Real.sqrt alpha - 0.0185), Real.sqrt_nonneg alpha]

theorem kappaA_pos (alpha v : ℝ) (ha : 0 < alpha) (hv : 0 < v) : 0 < kappaA alpha v := by
  have := denomA_pos alpha ha
  unfold kappaA; positivity

theorem kappaB_pos (alpha : ℝ) (ha : 0 < alpha) : 0 < kappaB alpha := by unfold kappaB; positivity

theorem kappaC_pos (alpha : ℝ) (ha : 0 < alpha) : 0 < kappaC alpha := by
  have := Real.sqrt_pos.2 ha
  unfold kappaC; positivity

theorem kappaD_pos (alpha : ℝ) (ha : 0 < alpha) : 0 < kappaD alpha := by
  have := Real.sqrt_pos.2 ha
  unfold kappaD; positivity

theorem deltaK_pos (alpha : ℝ) (ha : 0 < alpha) : 0 < deltaK alpha := by
  have h := Real.sqrt_pos.2 ha
  have hl : Real.log (Real.sqrt alpha / (1 + Real.sqrt alpha)) < 0 := by
    apply Real.log_neg (by positivity)
    rw [div_lt_one (by positivity)]; linarith
  unfold deltaK
  linarith

/-- The Chapman–Jouguet velocity lies between the velocity of sound `1/√3` and one. -/
theorem xiJ_range (alpha : ℝ) (ha : 0 < alpha) : Real.sqrt (1 / 3) < xiJ alpha ∧ xiJ alpha < 1 := by
  have hs0 : 0 < Real.sqrt (1 / 3) := Real.sqrt_pos.2 (by norm_num)
  have hs : Real.sqrt (1 / 3) ^ 2 = 1 / 3 := Real.sq_sqrt (by norm_num)
  generalize Real.sqrt (1 / 3) = s at *
  have hs1 : s < 0.6 := by nlinarith
  have hnn : 0 ≤ 2 / 3 * alpha + alpha * alpha := by positivity
  unfold xiJ
  constructor
  · rw [lt_div_iff₀ (by linarith)]
    have : s * alpha < Real.sqrt (2 / 3 * alpha + alpha * alpha) := by
      apply Real.lt_sqrt_of_sq_lt
      have e : (s * alpha) ^ 2 = s ^ 2 * (alpha * alpha) := by ring
      rw [e, hs]
      nlinarith [mul_pos ha ha]
    have hr : Real.sqrt (1 / 3) = s := by
      rw [← hs, Real.sqrt_sq hs0.le]
    rw [hr]
    linarith
  · have hr : Real.sqrt (1 / 3) = s := by
      rw [← hs, Real.sqrt_sq hs0.le]
    rw [hr, div_lt_one (by linarith)]
    have : Real.sqrt (2 / 3 * alpha + alpha * alpha) < 1 + alpha - s := by
      rw [Real.sqrt_lt' (by linarith)]
      nlinarith
    linarith

theorem rpow_split (c : ℝ) (hc : 0 < c) : c ^ (11 / 5 : ℝ) = c * c ^ (6 / 5 : ℝ) := by
  rw [show (11 / 5 : ℝ) = 1 + 6 / 5 by norm_num, Real.rpow_add hc, Real.rpow_one]

/-- **C60** The three formulas for the efficiency agree where they meet: at the velocity of sound and at
the Chapman–Jouguet velocity. -/
theorem C60_kappa_joins (alpha c : ℝ) (ha : 0 < alpha) (hc : 0 < c) (hx : c < xiJ alpha) :
    kappaSlow alpha c c = kappaMid alpha c c ∧ kappaMid alpha (xiJ alpha) c = kappaFast alpha (xiJ alpha) := by
  constructor
  · have hA := kappaA_pos alpha c ha hc
    have e : kappaSlow alpha c c = kappaB alpha := by
      unfold kappaSlow
      rw [sub_self, zero_mul, zero_add, rpow_split c hc]
      have : 0 < c ^ (6 / 5 : ℝ) := by positivity
      field_simp
    rw [e]
    unfold kappaMid
    simp
  · have hj : xiJ alpha - c ≠ 0 := by linarith
    have e1 : kappaMid alpha (xiJ alpha) c = kappaC alpha := by
      unfold kappaMid
      rw [div_self (pow_ne_zero 3 hj)]
      ring
    have hD := kappaD_pos alpha ha
    have hj1 := (xiJ_range alpha ha).2
    have hj0 : 0 < xiJ alpha := by linarith
    have e2 : kappaFast alpha (xiJ alpha) = kappaC alpha := by
      unfold kappaFast
      rw [sub_self, zero_mul, zero_mul, zero_add, neg_div, Real.rpow_neg hj0.le]
      have h1 : 0 < xiJ alpha ^ (5 / 2 : ℝ) := by positivity
      have h2 : xiJ alpha - 1 ≠ 0 := by linarith
      have h3 : (xiJ alpha - 1) ^ 3 ≠ 0 := pow_ne_zero 3 h2
      field_simp
    rw [e1, e2]

/-- **C60** The efficiency is positive for every strength and every wall velocity up to one. -/
theorem C60_kappa_pos (alpha v c : ℝ) (ha : 0 < alpha) (hc : 0 < c) (hx : c < xiJ alpha) (hv : 0 < v)
    (hv1 : v ≤ 1) : 0 < kappaSw alpha v c := by
  have hB := kappaB_pos alpha ha
  have hC := kappaC_pos alpha ha
  have hD := kappaD_pos alpha ha
  have hK := deltaK_pos alpha ha
  have hA := kappaA_pos alpha v ha hv
  have hj1 := (xiJ_range alpha ha).2
  unfold kappaSw
  split
  · rename_i h
    unfold kappaSlow
    have h1 : 0 < c ^ (11 / 5 : ℝ) - v ^ (11 / 5 : ℝ) := by
      have := Real.rpow_lt_rpow hv.le h (show (0 : ℝ) < 11 / 5 by norm_num)
      linarith
    positivity
  · rename_i hcv
    split
    · rename_i h
      have hj0 : 0 < xiJ alpha := by linarith
      unfold kappaFast
      have e1 : (xiJ alpha - 1) ^ 3 < (v - 1) ^ 3 := by
        apply Odd.strictMono_pow (by decide); linarith
      have e2 : (xiJ alpha - 1) ^ 3 < 0 := Odd.pow_neg (by decide) (by linarith)
      have e3 : (v - 1) ^ 3 ≤ 0 := Odd.pow_nonpos (by decide) (by linarith)
      have h1 : 0 < xiJ alpha ^ (5 / 2 : ℝ) := by positivity
      have h2 : 0 < v ^ (-5 / 2 : ℝ) := by positivity
      apply div_pos_of_neg_of_neg
      · have : 0 < xiJ alpha ^ (5 / 2 : ℝ) * v ^ (-5 / 2 : ℝ) * kappaC alpha * kappaD alpha := by
          positivity
        have := mul_neg_of_neg_of_pos e2 this
        linarith
      · have p1 : ((xiJ alpha - 1) ^ 3 - (v - 1) ^ 3) * (xiJ alpha ^ (5 / 2 : ℝ) * kappaC alpha) < 0 :=
          mul_neg_of_neg_of_pos (by linarith) (by positivity)
        have p2 : (v - 1) ^ 3 * kappaD alpha ≤ 0 := mul_nonpos_of_nonpos_of_nonneg e3 hD.le
        linarith
    · rename_i h
      unfold kappaMid
      have hd : 0 < xiJ alpha - c := by linarith
      have ht0 : 0 ≤ (v - c) / (xiJ alpha - c) := div_nonneg (by linarith) hd.le
      have ht1 : (v - c) / (xiJ alpha - c) ≤ 1 := by rw [div_le_one hd]; linarith
      have e : v - c = (v - c) / (xiJ alpha - c) * (xiJ alpha - c) := by field_simp
      rw [← div_pow]
      generalize (v - c) / (xiJ alpha - c) = t at *
      rw [e]
      have h3 : t ^ 3 ≤ 1 := pow_le_one₀ ht0 ht1
      have h30 : 0 ≤ t ^ 3 := by positivity
      have h31 : t ^ 3 ≤ t := by
        have : t ^ 3 = t * t ^ 2 := by ring
        have : t ^ 2 ≤ 1 := pow_le_one₀ ht0 ht1
        nlinarith
      have q1 : 0 ≤ (1 - t ^ 3) * kappaB alpha := mul_nonneg (by linarith) hB.le
      have q2 : 0 ≤ t ^ 3 * kappaC alpha := mul_nonneg h30 hC.le
      have q3 : 0 ≤ (t - t ^ 3) * ((xiJ alpha - c) * deltaK alpha) :=
        mul_nonneg (by linarith) (by positivity)
      have q4 : 0 < (1 - t ^ 3) * kappaB alpha + t ^ 3 * kappaC alpha := by
        by_cases hh : t ^ 3 < 1
        · have := mul_pos (show 0 < 1 - t ^ 3 by linarith) hB
          linarith
        · have : t ^ 3 = 1 := le_antisymm h3 (not_lt.1 hh)
          rw [this]; linarith
      linarith

/-- **C60** The energy fraction of the sound waves is positive; the duration factor of the turbulence
fraction, if not given by the user, lies between zero and one. -/
theorem C60_fractions (alpha v c betaH hr : ℝ) (ha : 0 < alpha) (hc : 0 < c) (hx : c < xiJ alpha)
    (hv : 0 < v) (hv1 : v ≤ 1) (hb : 0 < betaH) (hhr : 0 ≤ hr) (k : ℝ) :
    0 < getKSw alpha v c ∧ 0 < getHR betaH v c ∧ 0 ≤ epsTurb hr k (-1) ∧ epsTurb hr k (-1) ≤ 1 ∧
    ∀ eps, eps ≠ -1 → epsTurb hr k eps = eps := by
  have hk := C60_kappa_pos alpha v c ha hc hx hv hv1
  have hpi := Real.pi_pos
  refine ⟨?_, ?_, ?_, ?_, ?_⟩
  · unfold getKSw; positivity
  · have : 0 < max v c := lt_max_of_lt_left hv
    unfold getHR; positivity
  · have h1 : min (2 / Real.sqrt 3 * hr / Real.sqrt k) 1 ≤ 1 := min_le_right _ _
    rw [epsTurb, if_pos rfl]
    exact Real.rpow_nonneg (by linarith) _
  · have h1 : min (2 / Real.sqrt 3 * hr / Real.sqrt k) 1 ≤ 1 := min_le_right _ _
    have h2 : 0 ≤ min (2 / Real.sqrt 3 * hr / Real.sqrt k) 1 := le_min (by positivity) (by norm_num)
    rw [epsTurb, if_pos rfl]
    exact Real.rpow_le_one (by linarith) (by linarith) (by norm_num)
  · intro eps h
    rw [epsTurb, if_neg h]

/-- **C60** The peak amplitude of the sound waves contains the duration of the source in Hubble times,
cut off at one: the two cases of the code are one continuous formula. -/
theorem C60_sound_amplitude (d : Data) (hr : 0 < d.hr) (hk : 0 < d.kSw) :
    ampSw d = 0.674 ^ 2 * 2.061 * 1.2e-2 * 3.57e-5 * (100 / d.gstar) ^ (1 / 3 : ℝ) *
      (d.hr * d.kSw ^ 2 * min 1 (2 * d.hr / Real.sqrt (3 * d.kSw))) := by
  unfold ampSw turnoverOne
  have h3 : 0 < Real.sqrt 3 := Real.sqrt_pos.2 (by norm_num)
  have hsk : 0 < Real.sqrt d.kSw := Real.sqrt_pos.2 hk
  have key : 2 / Real.sqrt 3 * d.hr ^ 2 * d.kSw ^ (3 / 2 : ℝ) =
      d.hr * d.kSw ^ 2 * (2 * d.hr / Real.sqrt (3 * d.kSw)) := by
    have e : d.kSw ^ (3 / 2 : ℝ) = d.kSw * Real.sqrt d.kSw := by
      rw [show (3 / 2 : ℝ) = 1 + 1 / 2 by norm_num, Real.rpow_add hk, Real.rpow_one,
        ← Real.sqrt_eq_rpow]
    have e2 : d.kSw ^ 2 = d.kSw * (Real.sqrt d.kSw * Real.sqrt d.kSw) := by
      rw [Real.mul_self_sqrt hk.le]; ring
    rw [e, e2, Real.sqrt_mul (by norm_num)]
    field_simp
  by_cases h : 2 * d.hr / Real.sqrt (3 * d.kSw) < 1
  · rw [min_eq_right h.le, if_pos h, if_neg (by simp), key]
    ring
  · rw [min_eq_left (not_lt.1 h), if_neg h, if_pos rfl]
    ring

example : (0 : ℝ) < 1 / 10 ∧ (0 : ℝ) < 1 / 2 ∧ (1 / 2 : ℝ) < xiJ (1 / 10) := by
  refine ⟨by norm_num, by norm_num, lt_trans ?_ (xiJ_range (1 / 10) (by norm_num)).1⟩
  rw [Real.lt_sqrt (by norm_num)]
  norm_num

/-! ### C61 -/

/-- **C61** A new object reports failure exactly if the inverse time scale is below one or the
transition temperature is not available, and is otherwise not yet set; its data are those of the
bounce. -/
theorem C61_construct (c temp alpha betaH v eps gstar hubble : ℝ) :
    let d := construct c temp alpha betaH v eps gstar hubble
    (d.status = .failure ↔ betaH < 1 ∨ temp = -1) ∧ (d.status ≠ .failure → d.status = .notSet) ∧
    d.transTemp = temp ∧ d.alpha = alpha ∧ d.betaH = betaH ∧ d.vb = v ∧ d.gstar = gstar ∧
    d.hstar = hubble ∧ d.hr = 1 / betaH * (8 * Real.pi) ^ (1 / 3 : ℝ) * max v c ∧
    d.kSw = kappaSw alpha v c * (alpha / (1 + alpha)) ∧
    d.kTurb = epsTurb d.hr d.kSw eps * d.kSw ∧ Fresh d := by
  intro d
  refine ⟨?_, ?_, rfl, rfl, rfl, rfl, rfl, rfl, rfl, ?_, ?_, ⟨rfl, rfl, rfl, rfl⟩⟩
  · show (if betaH < 1 then GWStatus.failure else if temp = -1 then .failure else .notSet) = .failure ↔ _
    by_cases h1 : betaH < 1 <;> by_cases h2 : temp = -1 <;> simp [h1, h2]
  · show (if betaH < 1 then GWStatus.failure else if temp = -1 then .failure else .notSet) ≠ .failure → (if betaH < 1 then GWStatus.failure else if temp = -1 then .failure else .notSet) = .notSet
    by_cases h1 : betaH < 1 <;> by_cases h2 : temp = -1 <;> simp [h1, h2]
  · exact mul_div_assoc _ _ _
  · show epsTurb (getHR betaH v c) (getKSw alpha v c) eps * kappaSw alpha v c * alpha / (1 + alpha) =
      epsTurb (getHR betaH v c) (getKSw alpha v c) eps * getKSw alpha v c
    unfold getKSw
    ring

/-- **C61** (failure) The calculation of the signal-to-noise ratio reports success whatever the status
was before. -/
theorem C61_snr_overwrites (d : Data) (fs : List ℝ) : (call d (.snr fs)).status = .success := rfl

end Verif.GW
