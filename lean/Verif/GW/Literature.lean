import Verif.GW.Props

/-!
# The formulas of the literature

The efficiency of the sound waves, the peaks of the spectra and the sensitivity of LISA in the form in
which the papers cited by the code give them: interpolations written as weighted means, frequencies in
units of the peak values.
-/

namespace Verif.GW

open Verif

/-- Efficiency factors of Espinosa, Konstandin, No, Servant (arXiv:1004.4187): small wall velocities
(`A`), the velocity of sound (`B`), Jouguet detonations (`C`) and velocities close to one (`D`). -/
noncomputable def effA (α v : ℝ) : ℝ := 6.9 * α / (1.36 - 0.037 * √α + α) * v ^ (6 / 5 : ℝ)

/-- See `effA`. -/
noncomputable def effB (α : ℝ) : ℝ := α ^ (2 / 5 : ℝ) / (0.017 + (0.997 + α) ^ (2 / 5 : ℝ))

/-- See `effA`. -/
noncomputable def effC (α : ℝ) : ℝ := √α / (0.135 + √(0.98 + α))

/-- See `effA`. -/
noncomputable def effD (α : ℝ) : ℝ := α / (0.73 + 0.083 * √α + α)

/-- The Jouguet velocity. -/
noncomputable def jouguet (α : ℝ) : ℝ := (√(α * (α + 2 / 3)) + √(1 / 3)) / (1 + α)

/-- The efficiency: a weighted harmonic mean of `A` and `B` below the velocity of sound `c`, one of `C`
and `D` above the Jouguet velocity, and a cubic between the two, whose slope at `c` is
`0.9 log ((1 + √α) / √α)`. -/
noncomputable def efficiency (α v c : ℝ) : ℝ :=
  if v < c then ((1 - (v / c) ^ (11 / 5 : ℝ)) / effA α v + (v / c) / effB α)⁻¹
  else if jouguet α < v then
    let r := ((1 - v) / (1 - jouguet α)) ^ 3
    (v ^ (5 / 2 : ℝ) * ((1 - r) / effD α + r / (jouguet α ^ (5 / 2 : ℝ) * effC α)))⁻¹
  else
    let t := (v - c) / (jouguet α - c)
    (1 - t ^ 3) * effB α + t ^ 3 * effC α +
      (v - c) * (1 - t ^ 2) * (0.9 * Real.log ((1 + √α) / √α))

theorem kappaA_eq (α v : ℝ) : kappaA α v = effA α v := by
  unfold kappaA effA; ring

theorem jouguet_eq (α : ℝ) : xiJ α = jouguet α := by
  unfold xiJ jouguet
  rw [show 2 / 3 * α + α * α = α * (α + 2 / 3) by ring]

/-- **C60.**  The efficiency factor is the published one for all strengths and wall velocities, if the
velocity of sound lies below the Jouguet velocity. -/
theorem C60_efficiency (α v c : ℝ) (ha : 0 < α) (hc : 0 < c) (hx : c < xiJ α) (hv : 0 < v)
    (hv1 : v ≤ 1) : kappaSw α v c = efficiency α v c := by
  have hA : 0 < effA α v := by rw [← kappaA_eq]; exact kappaA_pos α v ha hv
  have hB : 0 < effB α := kappaB_pos α ha
  have hC : 0 < effC α := kappaC_pos α ha
  have hD : 0 < effD α := kappaD_pos α ha
  have hJ := (xiJ_range α ha).2
  have hJ0 : 0 < xiJ α := lt_trans hc hx
  unfold kappaSw efficiency
  rw [← jouguet_eq]
  by_cases h1 : v < c
  · rw [if_pos h1, if_pos h1, kappaSlow, kappaA_eq]
    change c ^ (11 / 5 : ℝ) * effA α v * effB α /
      ((c ^ (11 / 5 : ℝ) - v ^ (11 / 5 : ℝ)) * effB α + v * c ^ (6 / 5 : ℝ) * effA α v) = _
    rw [Real.div_rpow hv.le hc.le]
    have hc' : 0 < c ^ (11 / 5 : ℝ) := Real.rpow_pos_of_pos hc _
    have hc6 : 0 < c ^ (6 / 5 : ℝ) := Real.rpow_pos_of_pos hc _
    have e := rpow_split c hc
    have hvr : v ^ (11 / 5 : ℝ) < c ^ (11 / 5 : ℝ) := Real.rpow_lt_rpow hv.le h1 (by norm_num)
    have d1 : 0 < (c ^ (11 / 5 : ℝ) - v ^ (11 / 5 : ℝ)) * effB α +
        v * c ^ (6 / 5 : ℝ) * effA α v :=
      add_pos (mul_pos (by linarith) hB) (by positivity)
    rw [eq_comm, inv_eq_one_div, div_eq_div_iff]
    · have : v / c = v * c ^ (6 / 5 : ℝ) / c ^ (11 / 5 : ℝ) := by
        rw [e]; field_simp
      rw [this]
      field_simp
    · have : 0 < 1 - v ^ (11 / 5 : ℝ) / c ^ (11 / 5 : ℝ) := by
        rw [sub_pos, div_lt_one hc']; exact hvr
      positivity
    · exact d1.ne'
  · rw [if_neg h1, if_neg h1]
    by_cases h2 : xiJ α < v
    · rw [if_pos h2, if_pos h2]
      have hX : 0 < 1 - xiJ α := by linarith
      have hY : 0 ≤ 1 - v := by linarith
      have hXY : (1 - v) ^ 3 < (1 - xiJ α) ^ 3 := pow_lt_pow_left₀ (by linarith) hY (by norm_num)
      have hY3 : 0 ≤ (1 - v) ^ 3 := pow_nonneg hY 3
      have hX3 : 0 < (1 - xiJ α) ^ 3 := by positivity
      have hp : 0 < xiJ α ^ (5 / 2 : ℝ) := Real.rpow_pos_of_pos hJ0 _
      have hq : 0 < v ^ (5 / 2 : ℝ) := Real.rpow_pos_of_pos hv _
      unfold kappaFast
      rw [show (-5 / 2 : ℝ) = -(5 / 2) by norm_num, Real.rpow_neg hv.le,
        show (xiJ α - 1) ^ 3 = -(1 - xiJ α) ^ 3 by ring, show (v - 1) ^ 3 = -(1 - v) ^ 3 by ring]
      change -(1 - xiJ α) ^ 3 * xiJ α ^ (5 / 2 : ℝ) * (v ^ (5 / 2 : ℝ))⁻¹ * effC α * effD α /
        ((-(1 - xiJ α) ^ 3 - -(1 - v) ^ 3) * xiJ α ^ (5 / 2 : ℝ) * effC α +
          -(1 - v) ^ 3 * effD α) = _
      dsimp only
      rw [div_pow]
      generalize (1 - v) ^ 3 = y at *
      generalize (1 - xiJ α) ^ 3 = x at *
      generalize xiJ α ^ (5 / 2 : ℝ) = p at *
      generalize v ^ (5 / 2 : ℝ) = q at *
      generalize effC α = C at *
      generalize effD α = D at *
      have d1 : 0 < (x - y) * p * C + y * D :=
        add_pos_of_pos_of_nonneg (by have := sub_pos.2 hXY; positivity) (by positivity)
      have d2 : (-x - -y) * p * C + -y * D ≠ 0 := by
        have : (-x - -y) * p * C + -y * D = -((x - y) * p * C + y * D) := by ring
        rw [this]; exact neg_ne_zero.2 d1.ne'
      have d3 : q * ((1 - y / x) / D + y / x / (p * C)) =
          q * ((x - y) * p * C + y * D) / (x * p * C * D) := by
        field_simp
      rw [d3, inv_div, div_eq_div_iff d2 (by positivity)]
      field_simp
      ring
    · rw [if_neg h2, if_neg h2]
      have hne : xiJ α - c ≠ 0 := by linarith
      have hd : deltaK α = 0.9 * Real.log ((1 + √α) / √α) := by
        have hs : 0 < √α := Real.sqrt_pos.2 ha
        unfold deltaK
        rw [← inv_div, Real.log_inv]
        ring
      unfold kappaMid
      rw [hd]
      change effB α + _ + _ * (effC α - effB α - _) = _
      dsimp only
      field_simp
      ring

/-- **C58.**  The peak frequencies in Hz and the peak amplitudes: `26 μHz` and `79.09 μHz` for a
radius of one Hubble length, a temperature of 100 GeV and 100 degrees of freedom. -/
theorem C58_peaks (d : Data) :
    freqSw d = 0.000026 * (d.transTemp / (100 * d.hr)) * (d.gstar / 100) ^ (1 / 6 : ℝ) ∧
    freqTurb d = 0.00007909 * (d.transTemp / (100 * d.hr)) * (d.gstar / 100) ^ (1 / 6 : ℝ) ∧
    ampTurb d = 0.0001144 * (100 / d.gstar) ^ (1 / 3 : ℝ) * (d.hr * d.kTurb ^ (3 / 2 : ℝ)) := by
  refine ⟨?_, ?_, ?_⟩
  · unfold freqSw; ring
  · unfold freqTurb; ring
  · unfold ampTurb; ring

/-- **C58.**  The sensitivity is `4 π² f³ S(f) / (3 H²)` with `H = 100 km / s / Mpc` and the noise
`S(f) = 10/3 (S_acc / (2 π f)⁴ + S_opt) (1 + (f / 25 mHz)²)` of LISA; a duration in years is turned
into seconds. -/
theorem C58_sensitivity (f years integral : ℝ) :
    h2OmSens f = 4 / 3 * (Real.pi * (3.09e17)) ^ 2 * f ^ 3 *
      (10 / 3 * (5.76e-48 * (1 + (0.0004 / f) ^ 2) / (2 * Real.pi * f) ^ 4 + 3.6e-41) *
        (1 + (40 * f) ^ 2)) ∧
    snr years integral = √(31557600 * years * integral) := by
  constructor
  · unfold h2OmSens powSpec siFunc rFunc
    ring
  · unfold snr
    norm_num

end Verif.GW
