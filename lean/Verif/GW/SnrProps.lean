import Verif.GW.Snr
import Verif.GW.Props
import Mathlib.Algebra.QuadraticDiscriminant
import Mathlib.MeasureTheory.Integral.IntervalIntegral.FundThmCalculus
import Mathlib.Analysis.SpecialFunctions.Pow.Continuity

/-!
# C140: the reported signal-to-noise ratios
-/

namespace Verif.GW

open Verif Verif.Tracer intervalIntegral

/-! ### Specification -/

/-- The noise of LISA in units of the energy density, `4 π² f³ S(f) / (3 H²)`, for 100 km/s/Mpc. -/
noncomputable def Spec.noise (f : ℝ) : ℝ :=
  4 / 3 * (Real.pi * (3.09e17)) ^ 2 * f ^ 3 *
    (10 / 3 * (5.76e-48 * (1 + (0.0004 / f) ^ 2) / (2 * Real.pi * f) ^ 4 + 3.6e-41) *
      (1 + (40 * f) ^ 2))

/-- The signal-to-noise ratio of a spectrum in a range of frequencies for a duration in seconds. -/
noncomputable def Spec.ratio (seconds a b : ℝ) (spec : ℝ → ℝ) : ℝ :=
  √(seconds * ∫ f in a..b, (spec f / Spec.noise f) ^ 2)

/-- The sound-wave spectrum of an object. -/
noncomputable def Spec.sound (d : Data) (f : ℝ) : ℝ := ampSw d * soundShape (f / freqSw d)

/-- The turbulence spectrum of an object, with the power 3 that the code has. -/
noncomputable def Spec.turb (d : Data) (f : ℝ) : ℝ :=
  ampTurb d * turbShape 3 (f / freqTurb d) (f / d.hstar)

/-! ### The integrals -/

theorem sens_eq (f : ℝ) : h2OmSens f = Spec.noise f := by
  unfold h2OmSens powSpec siFunc rFunc Spec.noise
  ring

theorem noise_pos (f : ℝ) (hf : 0 < f) : 0 < Spec.noise f := by
  rw [← sens_eq]
  exact (C58_snr 0 f 0 0 hf).1

/-- **C140** After the peaks were calculated, the signal-to-noise ratio is that of the spectrum with the
parts that are switched on, for every range of frequencies and every duration. -/
theorem C140_value (p d : Data) (hp : Physical p) (h : Settled p d) (a b years : ℝ) :
    getSNR d a b years = Spec.ratio (31557600 * years) a b
      (fun f => (if d.swON then Spec.sound p f else 0) + (if d.turbON then Spec.turb p f else 0)) := by
  have e : integrateSNR d a b = ∫ f in a..b,
      (((if d.swON then Spec.sound p f else 0) + (if d.turbON then Spec.turb p f else 0))
        / Spec.noise f) ^ 2 := by
    unfold integrateSNR
    congr 1
    funext f
    rw [amplitude_settled hp h, snrIntegrand, sens_eq]
    rfl
  unfold getSNR Spec.ratio snr
  rw [e]
  norm_num

theorem settled_reported (d : Data) :
    Settled d (call (call (call (call d .freqSw) .ampSw) .freqTurb) .ampTurb) := settled_peaks d

/-- **C140** The peaks and the three ratios that are reported: sound waves, turbulence, and both, between
1e-6 and 10 Hz in three years. -/
theorem C140_reported (d : Data) (hd : Physical d) :
    (reported d).fSw = freqSw d ∧ (reported d).oSw = ampSw d ∧
    (reported d).fTurb = freqTurb d ∧ (reported d).oTurb = ampTurb d ∧
    (reported d).snrSw = Spec.ratio 94672800 1e-6 10 (Spec.sound d) ∧
    (reported d).snrTurb = Spec.ratio 94672800 1e-6 10 (Spec.turb d) ∧
    (reported d).snr = Spec.ratio 94672800 1e-6 10 (fun f => Spec.sound d f + Spec.turb d f) := by
  have hs := settled_reported d
  refine ⟨hs.2.1, hs.2.2.1, hs.2.2.2.1, hs.2.2.2.2, ?_, ?_, ?_⟩
  · change getSNR (call _ (.switches true false)) 1e-6 10 3 = _
    rw [C140_value d _ hd (settled_call hs _)]
    simp only [call, if_true, Bool.false_eq_true, if_false, add_zero]
    norm_num
  · change getSNR (call _ (.switches false true)) 1e-6 10 3 = _
    rw [C140_value d _ hd (settled_call hs _)]
    simp only [call, if_true, Bool.false_eq_true, if_false, zero_add]
    norm_num
  · change getSNR (call _ (.switches true true)) 1e-6 10 3 = _
    rw [C140_value d _ hd (settled_call hs _)]
    simp only [call, if_true]
    norm_num

theorem continuous_soundShape : Continuous soundShape := by
  unfold soundShape
  have h : Continuous fun x : ℝ => 7 / (4 + 3 * x ^ 2) :=
    continuous_const.div (by fun_prop) (fun x => by positivity)
  exact (continuous_pow 3).mul (h.rpow_const fun x => Or.inl (by positivity))

theorem soundShape_nonneg (x : ℝ) (hx : 0 ≤ x) : 0 ≤ soundShape x := by
  unfold soundShape
  positivity

theorem soundShape_pos (x : ℝ) (hx : 0 < x) : 0 < soundShape x := by
  unfold soundShape
  positivity

theorem turbShape_nonneg (x y : ℝ) (hx : 0 ≤ x) (hy : 0 ≤ y) : 0 ≤ turbShape 3 x y := by
  unfold turbShape
  have := Real.pi_pos
  positivity

theorem continuousOn_noise : ContinuousOn Spec.noise (Set.Ioi 0) := by
  unfold Spec.noise
  have hpi := Real.pi_pos
  refine ContinuousOn.mul (by fun_prop) (ContinuousOn.mul (ContinuousOn.mul (by fun_prop) ?_) (by fun_prop))
  refine ContinuousOn.add (ContinuousOn.div ?_ (by fun_prop) ?_) continuousOn_const
  · refine ContinuousOn.mul continuousOn_const (ContinuousOn.add continuousOn_const ?_)
    refine ContinuousOn.pow (ContinuousOn.div continuousOn_const continuousOn_id ?_) 2
    intro x hx
    exact ne_of_gt hx
  · intro x hx
    have : 0 < x := hx
    positivity

theorem continuousOn_sound (d : Data) : ContinuousOn (Spec.sound d) (Set.Ioi 0) := by
  unfold Spec.sound
  exact (continuous_const.mul (continuous_soundShape.comp (continuous_id.div_const _))).continuousOn

theorem continuousOn_turb (d : Data) (hd : Physical d) : ContinuousOn (Spec.turb d) (Set.Ioi 0) := by
  unfold Spec.turb turbShape
  have hpi := Real.pi_pos
  have h1 := freqTurb_pos d hd
  have h2 := hd.hstar
  refine ContinuousOn.mul continuousOn_const (ContinuousOn.div (by fun_prop) ?_ ?_)
  · refine ContinuousOn.mul (ContinuousOn.rpow_const (by fun_prop) ?_) (by fun_prop)
    intro x hx
    have : 0 < x := hx
    exact Or.inl (by positivity)
  · intro x hx
    have : 0 < x := hx
    positivity

theorem sound_nonneg (d : Data) (hd : Physical d) (ha : 0 ≤ ampSw d) (f : ℝ) (hf : 0 < f) :
    0 ≤ Spec.sound d f :=
  mul_nonneg ha (soundShape_nonneg _ (div_pos hf (freqSw_pos d hd)).le)

theorem turb_nonneg (d : Data) (hd : Physical d) (ha : 0 ≤ ampTurb d) (f : ℝ) (hf : 0 < f) :
    0 ≤ Spec.turb d f :=
  mul_nonneg ha (turbShape_nonneg _ _ (div_pos hf (freqTurb_pos d hd)).le (div_pos hf hd.hstar).le)

/-- the ratio of a spectrum to the noise -/
theorem continuousOn_ratio {g : ℝ → ℝ} (hg : ContinuousOn g (Set.Ioi 0)) {a b : ℝ} (ha : 0 < a)
    (hab : a ≤ b) : ContinuousOn (fun f => g f / Spec.noise f) (Set.uIcc a b) := by
  have hsub : Set.uIcc a b ⊆ Set.Ioi 0 := by
    rw [Set.uIcc_of_le hab]
    exact fun x hx => lt_of_lt_of_le ha hx.1
  exact (hg.mono hsub).div (continuousOn_noise.mono hsub) fun x hx => (noise_pos x (hsub hx)).ne'

/-- **C140** The ratio grows with the square root of the duration: four times the time doubles it. -/
theorem C140_duration (d : Data) (a b years k : ℝ) (hk : 0 ≤ k) :
    getSNR d a b (k ^ 2 * years) = k * getSNR d a b years := by
  unfold getSNR snr
  rw [show 86400 * 365.25 * (k ^ 2 * years) * integrateSNR d a b
    = k ^ 2 * (86400 * 365.25 * years * integrateSNR d a b) by ring, Real.sqrt_mul (sq_nonneg k),
    Real.sqrt_sq hk]

/-- **C140** A wider range of frequencies never gives a smaller ratio. -/
theorem C140_range (p d : Data) (hp : Physical p) (h : Settled p d) (a b a' b' years : ℝ) (hy : 0 ≤ years)
    (ha' : 0 < a') (h1 : a' ≤ a) (h2 : a ≤ b) (h3 : b ≤ b') :
    getSNR d a b years ≤ getSNR d a' b' years := by
  rw [C140_value p d hp h, C140_value p d hp h]
  unfold Spec.ratio
  refine Real.sqrt_le_sqrt (mul_le_mul_of_nonneg_left ?_ (by positivity))
  have hg : ContinuousOn (fun f => (if d.swON then Spec.sound p f else 0) +
      (if d.turbON then Spec.turb p f else 0)) (Set.Ioi 0) := by
    refine ContinuousOn.add ?_ ?_
    · split
      · exact continuousOn_sound p
      · exact continuousOn_const
    · split
      · exact continuousOn_turb p hp
      · exact continuousOn_const
  have hc := (continuousOn_ratio hg ha' (h1.trans (h2.trans h3))).pow 2
  exact integral_mono_interval h1 h2 h3 (Filter.Eventually.of_forall fun x => sq_nonneg _)
    hc.intervalIntegrable

/-! ### The parts -/

theorem cauchy_schwarz {a b : ℝ} {g h : ℝ → ℝ} (hab : a ≤ b) (hg : ContinuousOn g (Set.uIcc a b))
    (hh : ContinuousOn h (Set.uIcc a b)) :
    (∫ f in a..b, g f * h f) ^ 2 ≤ (∫ f in a..b, g f ^ 2) * ∫ f in a..b, h f ^ 2 := by
  have i1 : IntervalIntegrable (fun f => g f ^ 2) MeasureTheory.volume a b :=
    (hg.pow 2).intervalIntegrable
  have i2 : IntervalIntegrable (fun f => h f ^ 2) MeasureTheory.volume a b :=
    (hh.pow 2).intervalIntegrable
  have i3 : IntervalIntegrable (fun f => g f * h f) MeasureTheory.volume a b :=
    (hg.mul hh).intervalIntegrable
  have key : ∀ t : ℝ, 0 ≤ (∫ f in a..b, h f ^ 2) * (t * t) + (2 * ∫ f in a..b, g f * h f) * t
      + ∫ f in a..b, g f ^ 2 := by
    intro t
    have e : ∫ f in a..b, (g f + t * h f) ^ 2 =
        (∫ f in a..b, h f ^ 2) * (t * t) + (2 * ∫ f in a..b, g f * h f) * t + ∫ f in a..b, g f ^ 2 := by
      have : (fun f => (g f + t * h f) ^ 2)
          = fun f => (t * t) * h f ^ 2 + (2 * t) * (g f * h f) + g f ^ 2 := by funext f; ring
      rw [this, integral_add ((i2.const_mul _).add (i3.const_mul _)) i1,
        integral_add (i2.const_mul _) (i3.const_mul _), integral_const_mul, integral_const_mul]
      ring
    rw [← e]
    exact integral_nonneg hab fun x _ => sq_nonneg _
  have := discrim_le_zero key
  unfold discrim at this
  nlinarith

/-- **C140** The ratio of both parts lies between the root of the sum of the squares of the two ratios and
their sum; so neither part alone has a larger one. -/
theorem C140_parts (d : Data) (hd : Physical d) (h1 : 0 ≤ ampSw d) (h2 : 0 ≤ ampTurb d) :
    (reported d).snrSw ^ 2 + (reported d).snrTurb ^ 2 ≤ (reported d).snr ^ 2 ∧
    (reported d).snr ≤ (reported d).snrSw + (reported d).snrTurb ∧
    (reported d).snrSw ≤ (reported d).snr ∧ (reported d).snrTurb ≤ (reported d).snr ∧
    0 ≤ (reported d).snrSw ∧ 0 ≤ (reported d).snrTurb := by
  obtain ⟨-, -, -, -, e1, e2, e3⟩ := C140_reported d hd
  have hab : (1e-6 : ℝ) ≤ 10 := by norm_num
  have ha : (0 : ℝ) < 1e-6 := by norm_num
  have c1 := continuousOn_ratio (continuousOn_sound d) ha hab
  have c2 := continuousOn_ratio (continuousOn_turb d hd) ha hab
  set g := fun f => Spec.sound d f / Spec.noise f with hgdef
  set h := fun f => Spec.turb d f / Spec.noise f with hhdef
  have i1 : IntervalIntegrable (fun f => g f ^ 2) MeasureTheory.volume (1e-6) 10 :=
    (c1.pow 2).intervalIntegrable
  have i2 : IntervalIntegrable (fun f => h f ^ 2) MeasureTheory.volume (1e-6) 10 :=
    (c2.pow 2).intervalIntegrable
  have i3 : IntervalIntegrable (fun f => g f * h f) MeasureTheory.volume (1e-6) 10 :=
    (c1.mul c2).intervalIntegrable
  have hA : 0 ≤ ∫ f in (1e-6 : ℝ)..10, g f ^ 2 := integral_nonneg hab fun x _ => sq_nonneg _
  have hB : 0 ≤ ∫ f in (1e-6 : ℝ)..10, h f ^ 2 := integral_nonneg hab fun x _ => sq_nonneg _
  have hC : 0 ≤ ∫ f in (1e-6 : ℝ)..10, g f * h f := by
    refine integral_nonneg hab fun x hx => ?_
    have hx0 : 0 < x := lt_of_lt_of_le ha hx.1
    exact mul_nonneg (div_nonneg (sound_nonneg d hd h1 x hx0) (noise_pos x hx0).le)
      (div_nonneg (turb_nonneg d hd h2 x hx0) (noise_pos x hx0).le)
  have hsum : ∫ f in (1e-6 : ℝ)..10, ((Spec.sound d f + Spec.turb d f) / Spec.noise f) ^ 2
      = (∫ f in (1e-6 : ℝ)..10, g f ^ 2) + 2 * (∫ f in (1e-6 : ℝ)..10, g f * h f)
        + ∫ f in (1e-6 : ℝ)..10, h f ^ 2 := by
    have : (fun f => ((Spec.sound d f + Spec.turb d f) / Spec.noise f) ^ 2)
        = fun f => g f ^ 2 + 2 * (g f * h f) + h f ^ 2 := by
      funext f; simp only [hgdef, hhdef]; ring
    rw [this, integral_add (i1.add (i3.const_mul _)) i2, integral_add i1 (i3.const_mul _),
      integral_const_mul]
  have hcs := cauchy_schwarz hab c1 c2
  rw [e1, e2, e3]
  unfold Spec.ratio
  rw [hsum]
  generalize (∫ f in (1e-6 : ℝ)..10, g f ^ 2) = A at *
  change 0 ≤ ∫ f in (1e-6 : ℝ)..10, h f ^ 2 at hB
  generalize (∫ f in (1e-6 : ℝ)..10, h f ^ 2) = B at *
  generalize (∫ f in (1e-6 : ℝ)..10, g f * h f) = C at *
  have q1 : √(94672800 * A) ^ 2 = 94672800 * A := Real.sq_sqrt (by positivity)
  have q2 : √(94672800 * B) ^ 2 = 94672800 * B := Real.sq_sqrt (by positivity)
  have q3 : √(94672800 * (A + 2 * C + B)) ^ 2 = 94672800 * (A + 2 * C + B) :=
    Real.sq_sqrt (by positivity)
  have p1 := Real.sqrt_nonneg (94672800 * A)
  have p2 := Real.sqrt_nonneg (94672800 * B)
  have p3 := Real.sqrt_nonneg (94672800 * (A + 2 * C + B))
  refine ⟨by rw [q1, q2, q3]; linarith, ?_, Real.sqrt_le_sqrt (by linarith), Real.sqrt_le_sqrt (by linarith),
    p1, p2⟩
  refine abs_le_of_sq_le_sq' ?_ (by positivity) |>.2
  rw [q3, add_sq, q1, q2]
  have hprod : 94672800 * C ≤ √(94672800 * A) * √(94672800 * B) := by
    refine abs_le_of_sq_le_sq' ?_ (by positivity) |>.2
    rw [mul_pow, mul_pow, q1, q2]
    nlinarith
  linarith

/-- **C140** A signal from sound waves always gives a positive ratio. -/
theorem C140_positive (d : Data) (hd : Physical d) (h1 : 0 < ampSw d) : 0 < (reported d).snrSw := by
  obtain ⟨-, -, -, -, e1, -⟩ := C140_reported d hd
  rw [e1]
  unfold Spec.ratio
  refine Real.sqrt_pos.2 (mul_pos (by norm_num) ?_)
  have hab : (1e-6 : ℝ) < 10 := by norm_num
  have ha : (0 : ℝ) < 1e-6 := by norm_num
  refine intervalIntegral_pos_of_pos_on
    ((continuousOn_ratio (continuousOn_sound d) ha hab.le).pow 2).intervalIntegrable ?_ hab
  intro x hx
  have hx0 : 0 < x := lt_trans ha hx.1
  have := noise_pos x hx0
  have := soundShape_pos _ (div_pos hx0 (freqSw_pos d hd))
  unfold Spec.sound
  positivity

/-- **C140** With both parts switched off the ratio is zero. -/
theorem C140_off (p d : Data) (hp : Physical p) (h : Settled p d) (hsw : d.swON = false)
    (ht : d.turbON = false) (a b years : ℝ) : getSNR d a b years = 0 := by
  rw [C140_value p d hp h]
  simp [Spec.ratio, hsw, ht]

example : Physical exData ∧ Settled exData (peakCalls.foldl call exData) :=
  ⟨⟨by norm_num [exData], by norm_num [exData], by norm_num [exData], by norm_num [exData]⟩,
    settled_peaks exData⟩

end Verif.GW
