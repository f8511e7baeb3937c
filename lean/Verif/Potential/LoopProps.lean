import Verif.Potential.Loop
import Verif.Potential.TreeProps
import Mathlib.Analysis.SpecialFunctions.Log.Deriv
import Mathlib.Analysis.SpecialFunctions.Pow.Deriv
import Mathlib.Analysis.SpecialFunctions.ExpDeriv
import Mathlib.Analysis.Calculus.Deriv.Inv
import Mathlib.Tactic.Linarith
import Mathlib.Tactic.Positivity
import Mathlib.Tactic.NormNum

/-!
# Derivatives of the one-loop contributions (C35, C62)
-/

set_option linter.unusedSectionVars false

namespace Verif.Potential

open Outcome Filter Topology

/-! ## C35: one particle -/

theorem cThreshold_pos : 0 < cThreshold := by unfold cThreshold; positivity

theorem tiny_lt_threshold : (1 : ℝ) / 10 ^ 200 < cThreshold := by
  unfold cThreshold
  rw [div_lt_div_iff_of_pos_left one_pos (by positivity) (by positivity)]
  exact pow_lt_pow_right₀ (by norm_num) (by norm_num)

theorem fcw_eq (s m : ℝ) (h : cThreshold ≤ |m|) : fcw s m = Real.log m - 2 * Real.log s := by
  unfold fcw
  rw [if_neg (not_lt.2 (tiny_lt_threshold.le.trans h)), Real.log_abs]

theorem cwTerm_zero_eq (s m cb : ℝ) (h : cThreshold ≤ |m|) :
    cwTerm s m cb 0 = 1 / (64 * Real.pi ^ 2) * m * m * (Real.log m - 2 * Real.log s - cb) := by
  rw [cwTerm, if_neg (not_lt.2 h), if_pos rfl, fcw_eq s m h]

theorem cwTerm_pos_eq (s m cb : ℝ) (d : Int) (hd : 0 < d) (h : cThreshold ≤ |m|) :
    cwTerm s m cb d =
      1 / (32 * Real.pi ^ 2) * m * (Real.log m - 2 * Real.log s - cb + 1 / 2) := by
  rw [cwTerm, if_neg (not_lt.2 h), if_neg (by omega), if_pos hd, fcw_eq s m h]

/-- Above the zero threshold the derivative mode of the Coleman-Weinberg term is the derivative of
its value with respect to the squared mass, for both signs of it. -/
theorem C35_coleman_weinberg (s m cb : ℝ) (d : Int) (hd : 0 < d) (h : cThreshold < |m|) :
    HasDerivAt (fun x => cwTerm s x cb 0) (cwTerm s m cb d) m := by
  have hm : m ≠ 0 := by
    intro h0; rw [h0, abs_zero] at h; exact absurd h (not_lt.2 cThreshold_pos.le)
  have hev : (fun x => cwTerm s x cb 0) =ᶠ[𝓝 m]
      fun x => 1 / (64 * Real.pi ^ 2) * x * x * (Real.log x - 2 * Real.log s - cb) := by
    have : ∀ᶠ x in 𝓝 m, cThreshold < |x| := (continuous_abs.continuousAt).eventually (lt_mem_nhds h)
    filter_upwards [this] with x hx
    exact cwTerm_zero_eq s x cb hx.le
  rw [cwTerm_pos_eq s m cb d hd h.le]
  refine HasDerivAt.congr_of_eventuallyEq ?_ hev
  have h1 : HasDerivAt (fun x => 1 / (64 * Real.pi ^ 2) * x * x)
      (1 / (64 * Real.pi ^ 2) * 1 * m + 1 / (64 * Real.pi ^ 2) * m * 1) m :=
    ((hasDerivAt_id' m).const_mul _).fun_mul (hasDerivAt_id' m)
  have h2 : HasDerivAt (fun x => Real.log x - 2 * Real.log s - cb) m⁻¹ m :=
    ((Real.hasDerivAt_log hm).sub_const _).sub_const _
  refine (h1.fun_mul h2).congr_deriv ?_
  have hp : Real.pi ≠ 0 := Real.pi_ne_zero
  field_simp
  ring

/-- Below the threshold both modes are zero. -/
theorem C35_below_threshold (s m cb : ℝ) (d : Int) (h : |m| < cThreshold) :
    cwTerm s m cb d = 0 := by
  rw [cwTerm, if_pos h]

theorem particle_cw_deriv (s m cb : ℝ) (d : Int) (hd : 0 < d) (h : cThreshold < m) :
    HasDerivAt (fun x => cwTerm s |x| cb 0) (cwTerm s |m| cb d) m := by
  have hm : 0 < m := cThreshold_pos.trans h
  have hev : (fun x => cwTerm s |x| cb 0) =ᶠ[𝓝 m] fun x => cwTerm s x cb 0 := by
    filter_upwards [lt_mem_nhds hm] with x hx
    rw [abs_of_pos hx]
  rw [abs_of_pos hm]
  exact (C35_coleman_weinberg s m cb d hd (by rwa [abs_of_pos hm])).congr_of_eventuallyEq hev

/-- The full property: for masses above the zero threshold the derivative modes of the contribution
of one particle are the derivative of its value, for every field. -/
def FieldDerivatives (J : Thermal) : Prop :=
  ∀ (s m T cb : ℝ) (d : Int), cThreshold < |m| → 0 < d →
    HasDerivAt (fun x => particle J s x T cb 0) (particle J s m T cb d) m

/-- For positive squared masses the derivative with respect to the first field is right at every
temperature, if the integral of the derivative is the derivative of the interpolation. -/
theorem C35_first_field_partial (J : Thermal) (hJ : ∀ x, HasDerivAt J.interpolated (J.integralD x) x)
    (s m T cb : ℝ) (h : cThreshold < m) :
    HasDerivAt (fun x => particle J s x T cb 0) (particle J s m T cb 1) m := by
  by_cases hT : T = 0
  · simp only [particle, hT, if_true, le_refl, show (0 : Int) ≤ 1 by omega]
    exact particle_cw_deriv s m cb 1 (by omega) h
  · have e0 : ∀ x, particle J s x T cb 0 =
        cwTerm s |x| cb 0 + T ^ 4 / (2 * Real.pi ^ 2) * J.interpolated (x / T ^ 2) := by
      intro x; simp [particle, hT]
    have e1 : particle J s m T cb 1 =
        cwTerm s |m| cb 1 + T ^ 2 / (2 * Real.pi ^ 2) * J.integralD (m / T ^ 2) := by
      simp [particle, hT]
    simp only [e0, e1]
    refine (particle_cw_deriv s m cb 1 (by omega) h).fun_add ?_
    have h2 : HasDerivAt (fun x : ℝ => x / T ^ 2) (1 / T ^ 2) m := (hasDerivAt_id' m).div_const _
    have h3 := ((hJ (m / T ^ 2)).comp m h2).const_mul (T ^ 4 / (2 * Real.pi ^ 2))
    refine h3.congr_deriv ?_
    have hp : Real.pi ≠ 0 := Real.pi_ne_zero
    field_simp

/-- At zero temperature the derivative is right for every field. -/
theorem C35_zero_temperature (J : Thermal) (s m cb : ℝ) (d : Int) (hd : 0 < d)
    (h : cThreshold < m) :
    HasDerivAt (fun x => particle J s x 0 cb 0) (particle J s m 0 cb d) m := by
  simp only [particle, if_true, le_refl, hd.le]
  exact particle_cw_deriv s m cb d hd h

/-- For the second and every further field the thermal part is left out of the derivative. -/
theorem C35_thermal_part_missing (J : Thermal) (s m T cb : ℝ) (hT : T ≠ 0) (d : Int) (hd : 2 ≤ d) :
    particle J s m T cb d =
      particle J s m T cb 1 - T ^ 2 / (2 * Real.pi ^ 2) * J.integralD (m / T ^ 2) := by
  have h1 : d ≠ 0 := by omega
  have h2 : d ≠ 1 := by omega
  have h3 : d ≠ -1 := by omega
  have h4 : (0 : Int) ≤ d := by omega
  have e : cwTerm s |m| cb d = cwTerm s |m| cb 1 := by
    unfold cwTerm
    simp [h1, show 0 < d by omega]
  simp [particle, hT, h1, h2, h3, h4, e]

/-- So the full property fails for all thermal functions that depend on the mass. -/
theorem C35_fails (J : Thermal) (hJ : ∀ x, HasDerivAt J.interpolated (J.integralD x) x)
    (hne : ∃ x, cThreshold < x ∧ J.integralD x ≠ 0) : ¬ FieldDerivatives J := by
  intro hall
  obtain ⟨x, hx, hx0⟩ := hne
  have h2 := hall 1 x 1 0 2 (by rwa [abs_of_pos (cThreshold_pos.trans hx)]) (by omega)
  have h1 := C35_first_field_partial J hJ 1 x 1 0 hx
  have he := h2.unique h1
  rw [C35_thermal_part_missing J 1 x 1 0 one_ne_zero 2 (by omega)] at he
  have hp : (0 : ℝ) < 2 * Real.pi ^ 2 := by positivity
  have : (1 : ℝ) ^ 2 / (2 * Real.pi ^ 2) * J.integralD (x / 1 ^ 2) = 0 := by linarith
  rw [one_pow, div_one] at this
  rcases mul_eq_zero.1 this with h | h
  · exact absurd h (by positivity)
  · exact hx0 h

/-- For a negative squared mass the Coleman-Weinberg part of the derivative has the wrong sign: the
value depends on the absolute value of the squared mass. -/
theorem C35_negative_mass (J : Thermal) (s m cb : ℝ) (d : Int) (hd : 0 < d)
    (h : m < -cThreshold) :
    HasDerivAt (fun x => particle J s x 0 cb 0) (-particle J s m 0 cb d) m := by
  have hm : m < 0 := h.trans (neg_lt_zero.2 cThreshold_pos)
  simp only [particle, if_true, le_refl, hd.le]
  have hev : (fun x => cwTerm s |x| cb 0) =ᶠ[𝓝 m] fun x => cwTerm s (-x) cb 0 := by
    filter_upwards [gt_mem_nhds hm] with x hx
    rw [abs_of_neg hx]
  rw [abs_of_neg hm]
  have h0 := C35_coleman_weinberg s (-m) cb d hd (by rw [abs_neg, abs_of_neg hm]; linarith)
  have h1 := h0.comp m (hasDerivAt_neg' m)
  refine HasDerivAt.congr_of_eventuallyEq ?_ hev
  refine h1.congr_deriv ?_
  ring

/-- At a fixed mass, mode `-1` is the derivative with respect to the temperature. -/
theorem C35_temperature (J : Thermal) (hJ : ∀ x, HasDerivAt J.interpolated (J.integralD x) x)
    (hI : ∀ x, J.interpolated x = J.integral x) (s m T cb : ℝ) (hT : T ≠ 0) :
    HasDerivAt (fun t => particle J s m t cb 0) (particle J s m T cb (-1)) T := by
  have hev : (fun t => particle J s m t cb 0) =ᶠ[𝓝 T] fun t =>
      cwTerm s |m| cb 0 + t ^ 4 / (2 * Real.pi ^ 2) * J.interpolated (m / t ^ 2) := by
    filter_upwards [isOpen_ne.mem_nhds hT] with t ht
    simp [particle, show t ≠ 0 from ht]
  have e1 : particle J s m T cb (-1) =
      1 / (2 * Real.pi ^ 2) * (4 * T ^ 3 * J.integral (m / T ^ 2) -
        2 * T * m * J.integralD (m / T ^ 2)) := by
    simp [particle, hT]
  rw [e1]
  refine HasDerivAt.congr_of_eventuallyEq ?_ hev
  have h1 : HasDerivAt (fun t : ℝ => t ^ 4 / (2 * Real.pi ^ 2)) (4 * T ^ 3 / (2 * Real.pi ^ 2)) T := by
    simpa using (hasDerivAt_pow 4 T).div_const (2 * Real.pi ^ 2)
  have h2 : HasDerivAt (fun t : ℝ => m / t ^ 2) (-(m * (2 * T)) / (T ^ 2) ^ 2) T := by
    have := (hasDerivAt_const T m).fun_div (hasDerivAt_pow 2 T) (pow_ne_zero 2 hT)
    simpa using this
  have h3 := (h1.fun_mul ((hJ (m / T ^ 2)).comp T h2)).const_add (cwTerm s |m| cb 0)
  refine h3.congr_deriv ?_
  have hp : Real.pi ≠ 0 := Real.pi_ne_zero
  simp only [Function.comp, hI]
  field_simp
  ring

/-! ## C62: the derivatives of the one-loop potential -/

section Potential

variable {V : Type}

/-- The full property for the temperature. -/
def TemperatureDerivative (S : Spectra V) : Prop :=
  ∀ (v : V) (T : ℝ), 0 < T → HasDerivAt (fun t => v1Loop S v t 0) (v1Loop S v T (-1)) T

/-- A model with scalars only. -/
noncomputable def scalarModel {n : Nat} (E : EigenLib n) (c : Curv n ℝ) (debye : Fin n → Fin n → ℝ)
    (s : ℝ) (JB JF : Thermal) : Spectra (FVec n ℝ) where
  nHiggs := n
  nGauge := 0
  nQuarks := 0
  nLepton := 0
  nColour := 3
  higgs := higgsSpectrum E c debye
  gauge := fun _ _ _ => []
  quark := fun _ _ => []
  lepton := fun _ _ => []
  scale := s
  JB := JB
  JF := JF

theorem higgsSpectrum_temp {n : Nat} (E : EigenLib n) (c : Curv n ℝ) (debye : Fin n → Fin n → ℝ)
    (v : FVec n ℝ) (T : ℝ) :
    higgsSpectrum E c debye v T (-1) = E.derivEig (massT debye T) (massT debye T) := by
  have h : fieldIndex n (-1) = none := fieldIndex_eq_none (by omega)
  simp [higgsSpectrum, higgsMassesSquared, higgsMassMatrix, h]

theorem higgsSpectrum_field {n : Nat} (E : EigenLib n) (c : Curv n ℝ) (debye : Fin n → Fin n → ℝ)
    (v : FVec n ℝ) (T : ℝ) (i : Fin n) :
    higgsSpectrum E c debye v T ((i : Int) + 1) = E.derivEig (massD c v i) (massD c v i) := by
  have h0 : ¬ ((i : Int) + 1 = 0) := by omega
  simp [higgsSpectrum, higgsMassesSquared, higgsMassMatrix, h0, fieldIndex_succ]

theorem higgsSpectrum_zero {n : Nat} (E : EigenLib n) (c : Curv n ℝ) (debye : Fin n → Fin n → ℝ)
    (v : FVec n ℝ) (T : ℝ) :
    higgsSpectrum E c debye v T 0 = (E.eig (mass0 c debye v T)).map cutMass := by
  simp [higgsSpectrum, higgsMassesSquared, higgsMassMatrix]

/-- The contribution of the scalars to the temperature derivative does not depend on the fields at
all: it is the same in every vacuum, for every number of fields, every potential and every eigenvalue
routine.  (It is calculated from the temperature derivative of the mass matrix instead of the mass
matrix.) -/
theorem C62_scalars_independent {n : Nat} (E : EigenLib n) (c : Curv n ℝ)
    (debye : Fin n → Fin n → ℝ) (s : ℝ) (JB JF : Thermal) (v v' : FVec n ℝ) (T : ℝ) :
    v1Loop (scalarModel E c debye s JB JF) v T (-1) =
      v1Loop (scalarModel E c debye s JB JF) v' T (-1) := by
  have e : ∀ w, v1Loop (scalarModel E c debye s JB JF) w T (-1) =
      v1LoopTemp (scalarModel E c debye s JB JF) w T := by
    intro w; simp [v1Loop]
  rw [e, e]
  simp only [v1LoopTemp, scalarModel, higgsSpectrum_temp]

/-- The eigenvalue routines for one field. -/
noncomputable def eigenOne : EigenLib 1 where
  eig := fun M => [M 0 0]
  derivEig := fun M D => [cutDeriv (M 0 0), cutDeriv (D 0 0)]
where cutDeriv (x : ℝ) : ℝ := if |x| < 1 / 10 ^ 6 then 0 else x

/-- The potential `½ m² φ² + λ/4! φ⁴` of one field. -/
def quartic (m2 lam : ℝ) : Curv 1 ℝ := ⟨fun _ => 0, fun _ _ => m2, fun _ _ _ => 0, fun _ _ _ _ => lam⟩

theorem quartic_mass (m2 lam : ℝ) (x T : ℝ) :
    mass0 (quartic m2 lam) (fun _ _ => 0) (fun _ => x) T 0 0 = m2 + 1 / 2 * lam * x * x := by
  unfold mass0 massUpper quartic
  by_cases hT : T = 0 <;> simp [hT]

/-- A single scalar without thermal mass: the one-loop potential is the contribution of one boson
with the mass at this field value, … -/
theorem quartic_loop (m2 lam s : ℝ) (JB JF : Thermal) (x T : ℝ)
    (hm : 1 / 10 ^ 5 ≤ m2 + 1 / 2 * lam * x * x) :
    v1Loop (scalarModel eigenOne (quartic m2 lam) (fun _ _ => 0) s JB JF) (fun _ => x) T 0 =
      boson JB s (m2 + 1 / 2 * lam * x * x) T cCWcb 0 := by
  have hcut : cutMass (m2 + 1 / 2 * lam * x * x) = m2 + 1 / 2 * lam * x * x := by
    unfold cutMass
    rw [if_neg (not_lt.2 (hm.trans (le_abs_self _)))]
  have hs : ∀ t, higgsSpectrum eigenOne (quartic m2 lam) (fun _ _ => 0) (fun _ => x) t 0 =
      [m2 + 1 / 2 * lam * x * x] := by
    intro t
    rw [higgsSpectrum_zero]
    show [cutMass _] = _
    rw [quartic_mass, hcut]
  simp only [v1Loop, v1Loop0, scalarModel, sumTo, hs, if_true]
  simp [nth, debyeTerm]
  right
  split <;> simp

/-- … and its temperature derivative mode is that of a massless boson. -/
theorem quartic_loop_temp (m2 lam s : ℝ) (JB JF : Thermal) (x T : ℝ) :
    v1Loop (scalarModel eigenOne (quartic m2 lam) (fun _ _ => 0) s JB JF) (fun _ => x) T (-1) =
      boson JB s 0 T cCWcb (-1) := by
  have hs : ∀ t, higgsSpectrum eigenOne (quartic m2 lam) (fun _ _ => 0) (fun _ => x) t (-1) =
      [0, 0] := by
    intro t
    rw [higgsSpectrum_temp]
    simp [eigenOne, eigenOne.cutDeriv, massT]
  simp only [v1Loop, v1LoopTemp, scalarModel, sumTo, hs]
  simp [nth, debyeTerm]

/-- The full property fails as soon as the thermal function distinguishes a heavy particle from a
massless one: the mode `-1` of a single scalar is not its temperature derivative. -/
theorem C62_temperature_fails (JB JF : Thermal)
    (hJ : ∀ x, HasDerivAt JB.interpolated (JB.integralD x) x)
    (hI : ∀ x, JB.interpolated x = JB.integral x) (y : ℝ) (hy : 1 / 10 ^ 5 ≤ y)
    (hne : 4 * JB.integral y - 2 * y * JB.integralD y ≠ 4 * JB.integral 0) :
    ¬ TemperatureDerivative (scalarModel eigenOne (quartic y 0) (fun _ _ => 0) 1 JB JF) := by
  intro hall
  have h := hall (fun _ => 0) 1 one_pos
  have e : (fun t => v1Loop (scalarModel eigenOne (quartic y 0) (fun _ _ => 0) 1 JB JF)
      (fun _ => 0) t 0) = fun t => boson JB 1 y t cCWcb 0 := by
    funext t
    rw [quartic_loop y 0 1 JB JF 0 t (by simpa using hy)]
    simp
  rw [e, quartic_loop_temp] at h
  have h' := C35_temperature JB hJ hI 1 y 1 cCWcb one_ne_zero
  have he := h.unique h'
  have hp : (0 : ℝ) < 2 * Real.pi ^ 2 := by positivity
  simp [boson, particle] at he
  apply hne
  linarith

/-- The contribution of the scalars to the derivative with respect to a field uses the derivatives
of the masses in the place of the masses: at zero temperature the derivative of `½ m² φ² + λ/4! φ⁴`
is `m²' CW'(m²')` instead of `m²' CW'(m²)`. -/
theorem C62_field_mode (m2 lam s : ℝ) (JB JF : Thermal) (x : ℝ) (h : 1 / 10 ^ 6 ≤ |lam * x|) :
    v1Loop (scalarModel eigenOne (quartic m2 lam) (fun _ _ => 0) s JB JF) (fun _ => x) 0 1 =
      lam * x * cwTerm s |lam * x| cCWcb 1 := by
  have hs : ∀ t, higgsSpectrum eigenOne (quartic m2 lam) (fun _ _ => 0) (fun _ => x) t 1 =
      [lam * x, lam * x] := by
    intro t
    have := higgsSpectrum_field eigenOne (quartic m2 lam) (fun _ _ => 0) (fun _ => x) t 0
    simp only [Fin.val_zero, Nat.cast_zero, zero_add] at this
    rw [this]
    have hd : massD (quartic m2 lam) (fun _ => x) 0 0 0 = lam * x := by simp [massD, quartic]
    show [eigenOne.cutDeriv _, eigenOne.cutDeriv _] = _
    rw [hd, eigenOne.cutDeriv, if_neg (not_lt.2 h)]
  simp only [v1Loop, v1LoopField, scalarModel, sumTo, hs]
  simp [nth, boson, particle]

/-- The full property for the fields. -/
def FieldDerivative {n : Nat} (S : Spectra (FVec n ℝ)) : Prop :=
  ∀ (v : FVec n ℝ) (T : ℝ) (i : Fin n),
    HasDerivAt (fun y => v1Loop S (Function.update v i y) T 0) (v1Loop S v T ((i : Int) + 1)) (v i)

/-- It fails for `φ⁴/4!` at scale 1, already at zero temperature: at `φ = 1` the derivative is
`½ (log ½ - 1) / (32 π²)`, the derivative mode gives `-1 / (32 π²)`. -/
theorem C62_field_fails (JB JF : Thermal) :
    ¬ FieldDerivative (scalarModel eigenOne (quartic 0 1) (fun _ _ => 0) 1 JB JF) := by
  intro hall
  have h := hall (fun _ => 1) 0 0
  simp only [Fin.val_zero, Nat.cast_zero, zero_add] at h
  rw [C62_field_mode 0 1 1 JB JF 1 (by norm_num)] at h
  have hthr : cThreshold < 1 / 2 := by unfold cThreshold; norm_num
  have hev : (fun y => v1Loop (scalarModel eigenOne (quartic 0 1) (fun _ _ => 0) 1 JB JF)
      (Function.update (fun _ => 1) 0 y) 0 0) =ᶠ[𝓝 1] fun y => cwTerm 1 (1 / 2 * y * y) cCWcb 0 := by
    have hopen : ∀ᶠ y : ℝ in 𝓝 1, 1 / 2 < y := lt_mem_nhds (by norm_num)
    filter_upwards [hopen] with y hy
    have hu : (Function.update (fun _ => (1 : ℝ)) (0 : Fin 1) y) = fun _ => y := by
      funext i
      rw [Subsingleton.elim i 0]
      simp
    have hpos : (1 : ℝ) / 8 < 1 / 2 * y * y := by nlinarith
    rw [hu, quartic_loop 0 1 1 JB JF y 0 (by norm_num; nlinarith)]
    simp only [boson, particle, if_true, le_refl]
    rw [show (0 : ℝ) + 1 / 2 * 1 * y * y = 1 / 2 * y * y by ring, abs_of_pos (by linarith)]
  have h' := h.congr_of_eventuallyEq hev.symm
  have hin : HasDerivAt (fun y : ℝ => 1 / 2 * y * y) (1 / 2 * 1 * 1 + 1 / 2 * 1 * 1) 1 :=
    ((hasDerivAt_id' (1 : ℝ)).const_mul (1 / 2)).fun_mul (hasDerivAt_id' (1 : ℝ))
  have hcw := C35_coleman_weinberg 1 (1 / 2 * 1 * 1) cCWcb 1 (by omega)
    (by norm_num; unfold cThreshold; norm_num)
  have htrue := HasDerivAt.comp (h := fun y : ℝ => 1 / 2 * y * y) (1 : ℝ) hcw hin
  have he := h'.unique htrue
  rw [cwTerm_pos_eq _ _ _ 1 (by omega) (by norm_num; unfold cThreshold; norm_num),
    cwTerm_pos_eq _ _ _ 1 (by omega) (by norm_num; unfold cThreshold; norm_num)] at he
  have hp : (0 : ℝ) < Real.pi ^ 2 := by positivity
  have hp' : (Real.pi ^ 2 : ℝ) ≠ 0 := hp.ne'
  have hlog : Real.log (1 / 2 * 1 * 1) = -Real.log 2 := by
    rw [show (1 / 2 * 1 * 1 : ℝ) = 2⁻¹ by norm_num, Real.log_inv]
  rw [hlog] at he
  simp only [cCWcb, Real.log_one, mul_one, abs_one] at he
  field_simp at he
  have h2 := Real.log_lt_sub_one_of_pos (x := 2) (by norm_num) (by norm_num)
  norm_num at he
  linarith

/-- What remains for the temperature: in a model without scalars and gauge bosons (only fermions,
whose masses do not depend on the temperature) mode `-1` is the derivative. -/
theorem C62_fermions_partial (S : Spectra V) (hH : S.nHiggs = 0) (hG : S.nGauge = 0)
    (hq : ∀ v, S.quark v (-1) = S.quark v 0) (hl : ∀ v, S.lepton v (-1) = S.lepton v 0)
    (hJ : ∀ x, HasDerivAt S.JF.interpolated (S.JF.integralD x) x)
    (hI : ∀ x, S.JF.interpolated x = S.JF.integral x) : TemperatureDerivative S := by
  intro v T hT
  have hsum : ∀ (n : Nat) (f : Nat → ℝ → ℝ) (f' : Nat → ℝ), (∀ k, HasDerivAt (f k) (f' k) T) →
      HasDerivAt (fun t => sumTo n (fun k => f k t)) (sumTo n f') T := by
    intro n f f' hf
    induction n with
    | zero => simpa [sumTo] using hasDerivAt_const T (0 : ℝ)
    | succ n ih =>
      have e : ∀ g : Nat → ℝ, sumTo (n + 1) g = sumTo n g + g n := by
        intro g; simp [sumTo, List.range_succ]
      simp only [e]
      exact ih.fun_add (hf n)
  have hf : ∀ m, HasDerivAt (fun t => -2 * fermion S.JF S.scale m t 0)
      (-2 * fermion S.JF S.scale m T (-1)) T := fun m =>
    (C35_temperature S.JF hJ hI S.scale m T cCWcb hT.ne').const_mul (-2)
  have e0 : ∀ t, v1Loop S v t 0 =
      S.nColour * sumTo S.nQuarks (fun k => -2 * fermion S.JF S.scale (nth (S.quark v 0) k) t 0) +
      sumTo S.nLepton (fun k => -2 * fermion S.JF S.scale (nth (S.lepton v 0) k) t 0) := by
    intro t
    simp [v1Loop, v1Loop0, hH, hG, sumTo]
  have e1 : v1Loop S v T (-1) =
      S.nColour * sumTo S.nQuarks
        (fun k => -2 * fermion S.JF S.scale (nth (S.quark v 0) k) T (-1)) +
      sumTo S.nLepton (fun k => -2 * fermion S.JF S.scale (nth (S.lepton v 0) k) T (-1)) := by
    simp [v1Loop, v1LoopTemp, hH, hG, sumTo, hq, hl]
  simp only [e0, e1]
  exact ((hsum _ _ _ fun k => hf _).const_mul _).fun_add (hsum _ _ _ fun k => hf _)

/-- For a gauge boson with thermal mass `m₀ + d T²` (both eigenvalues right) the mode `-1` lacks
the term from the temperature dependence of the mass, `-(T/12π) · 3 d T √(m₀ + d T²)`. -/
theorem C62_gauge_term_missing (S : Spectra V) (hH : S.nHiggs = 0) (hG : S.nGauge = 1)
    (hQ : S.nQuarks = 0) (hL : S.nLepton = 0) (v : V) (m0 d : ℝ) (hm : 0 < m0) (hd : 0 ≤ d)
    (hg : ∀ t, S.gauge v t 0 = [m0 + d * t ^ 2])
    (hg' : ∀ t, ∃ x, S.gauge v t (-1) = [m0 + d * t ^ 2, x])
    (hJ : ∀ x, HasDerivAt S.JB.interpolated (S.JB.integralD x) x)
    (hI : ∀ x, S.JB.interpolated x = S.JB.integral x) (T : ℝ) (hT : 0 < T) :
    HasDerivAt (fun t => v1Loop S v t 0)
      (v1Loop S v T (-1) -
        T / (12 * Real.pi) * (3 * d * T * (m0 + d * T ^ 2) ^ (1 / 2 : ℝ))) T := by
  have hpos : ∀ t : ℝ, 0 < m0 + d * t ^ 2 := fun t => by positivity
  have e0 : ∀ t, v1Loop S v t 0 = 3 * boson S.JB S.scale m0 t cCWcbGB 0 +
      -t / (12 * Real.pi) * ((m0 + d * t ^ 2) ^ (3 / 2 : ℝ) + -m0 ^ (3 / 2 : ℝ)) := by
    intro t
    have h0 : S.gauge v 0 0 = [m0] := by simpa using hg 0
    simp [v1Loop, v1Loop0, hH, hG, hQ, hL, sumTo, hg t, h0, nth, debyeTerm, hpos t, hm]
  have e1 : v1Loop S v T (-1) = 3 * boson S.JB S.scale m0 T cCWcbGB (-1) +
      -1 / (12 * Real.pi) * ((m0 + d * T ^ 2) ^ (3 / 2 : ℝ) + -m0 ^ (3 / 2 : ℝ)) := by
    obtain ⟨x, hx⟩ := hg' T
    obtain ⟨y, hy⟩ := hg' 0
    have h0 : S.gauge v 0 (-1) = [m0, y] := by simpa using hy
    simp [v1Loop, v1LoopTemp, hH, hG, hQ, hL, sumTo, hx, h0, nth, debyeTerm, hpos T, hm]
  simp only [e0, e1]
  have h1 := (C35_temperature S.JB hJ hI S.scale m0 T cCWcbGB hT.ne').const_mul 3
  have h2 : HasDerivAt (fun t : ℝ => m0 + d * t ^ 2) (d * (2 * T)) T := by
    simpa using ((hasDerivAt_pow 2 T).const_mul d).const_add m0
  have h3 := h2.rpow_const (p := 3 / 2) (Or.inl (hpos T).ne')
  have h4 := ((hasDerivAt_id' T).fun_neg.div_const (12 * Real.pi)).fun_mul
    (h3.add_const (-m0 ^ (3 / 2 : ℝ)))
  refine (h1.fun_add h4).congr_deriv ?_
  rw [show (3 / 2 - 1 : ℝ) = 1 / 2 by norm_num]
  simp only [boson]
  ring

/-- Thermal functions that meet the hypotheses (with a mass dependence like that of heavy
particles). -/
example : ∃ J : Thermal, (∀ x, HasDerivAt J.interpolated (J.integralD x) x) ∧
    (∀ x, J.interpolated x = J.integral x) ∧
    4 * J.integral 1 - 2 * 1 * J.integralD 1 ≠ 4 * J.integral 0 ∧
    (∃ x, cThreshold < x ∧ J.integralD x ≠ 0) := by
  refine ⟨⟨fun x => x, fun x => x, fun _ => 1⟩, fun x => hasDerivAt_id' x, fun _ => rfl, by norm_num,
    1, by unfold cThreshold; norm_num, by norm_num⟩

end Potential

end Verif.Potential
