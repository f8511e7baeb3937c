import Verif.Outcome
import Verif.Flt
import Verif.Tracer.Phase
import Mathlib.Analysis.SpecialFunctions.Pow.Real
import Mathlib.Analysis.SpecialFunctions.Sqrt
import Mathlib.Analysis.Real.Pi.Bounds

/-!
# Gravitational waves

`src/gravitational_waves/gw.cpp`.  Real numbers without rounding; `std::pow` with a fractional exponent
is the real power.  A division by a peak frequency that is still zero gives NaN, see `swTerm` and
`turbTerm`; other divisions by zero are not represented as such.
-/

namespace Verif.GW

open Verif Verif.Tracer

/-- include/BSMPT/gravitational_waves/gw.h:25-51 `GravitationalWaveData` -/
structure Data where
  swON : Bool := true
  turbON : Bool := true
  transTemp : ℝ := 0
  alpha : ℝ := 0
  betaH : ℝ := 0
  vb : ℝ := 0
  kappaSw : ℝ := 0
  kSw : ℝ := 0
  hr : ℝ := 0
  kappaTurb : ℝ := 0
  kTurb : ℝ := 0
  gstar : ℝ := 0
  hstar : ℝ := 0
  fSw : ℝ := 0
  oSw : ℝ := 0
  fTurb : ℝ := 0
  oTurb : ℝ := 0
  status : GWStatus := .notSet

/-- gw.cpp:227-228, `kappaA` of `Getkappa_sw` -/
noncomputable def kappaA (alpha v : ℝ) : ℝ :=
  v ^ (6 / 5 : ℝ) * 6.9 * alpha / (1.36 - 0.037 * Real.sqrt alpha + alpha)

/-- gw.cpp:229-230 -/
noncomputable def kappaB (alpha : ℝ) : ℝ :=
  alpha ^ (2 / 5 : ℝ) / (0.017 + (0.997 + alpha) ^ (2 / 5 : ℝ))

/-- gw.cpp:231 -/
noncomputable def kappaC (alpha : ℝ) : ℝ :=
  Real.sqrt alpha / (0.135 + Real.sqrt (0.98 + alpha))

/-- gw.cpp:232 -/
noncomputable def kappaD (alpha : ℝ) : ℝ :=
  alpha / (0.73 + 0.083 * Real.sqrt alpha + alpha)

/-- gw.cpp:233-235 -/
noncomputable def xiJ (alpha : ℝ) : ℝ :=
  (Real.sqrt (2 / 3 * alpha + alpha * alpha) + Real.sqrt (1 / 3)) / (1 + alpha)

/-- gw.cpp:236 -/
noncomputable def deltaK (alpha : ℝ) : ℝ :=
  -0.9 * Real.log (Real.sqrt alpha / (1 + Real.sqrt alpha))

/-- gw.cpp:238-241: slow walls -/
noncomputable def kappaSlow (alpha v c : ℝ) : ℝ :=
  c ^ (11 / 5 : ℝ) * kappaA alpha v * kappaB alpha /
    ((c ^ (11 / 5 : ℝ) - v ^ (11 / 5 : ℝ)) * kappaB alpha + v * c ^ (6 / 5 : ℝ) * kappaA alpha v)

/-- gw.cpp:242-247: fast walls -/
noncomputable def kappaFast (alpha v : ℝ) : ℝ :=
  (xiJ alpha - 1) ^ 3 * xiJ alpha ^ (5 / 2 : ℝ) * v ^ (-5 / 2 : ℝ) * kappaC alpha * kappaD alpha /
    (((xiJ alpha - 1) ^ 3 - (v - 1) ^ 3) * xiJ alpha ^ (5 / 2 : ℝ) * kappaC alpha +
      (v - 1) ^ 3 * kappaD alpha)

/-- gw.cpp:248-251: walls in between -/
noncomputable def kappaMid (alpha v c : ℝ) : ℝ :=
  kappaB alpha + (v - c) * deltaK alpha + ((v - c) ^ 3 / (xiJ alpha - c) ^ 3) *
    (kappaC alpha - kappaB alpha - (xiJ alpha - c) * deltaK alpha)

/-- gw.cpp:223-254 `Getkappa_sw` -/
noncomputable def kappaSw (alpha v c : ℝ) : ℝ :=
  if v < c then kappaSlow alpha v c
  else if v > xiJ alpha then kappaFast alpha v
  else kappaMid alpha v c

/-- gw.cpp:256-260 `GetK_sw` -/
noncomputable def getKSw (alpha v c : ℝ) : ℝ := kappaSw alpha v c * alpha / (1 + alpha)

/-- gw.cpp:262-267 `GetHR` -/
noncomputable def getHR (betaH v c : ℝ) : ℝ :=
  1 / betaH * (8 * Real.pi) ^ (1 / 3 : ℝ) * max v c

/-- gw.cpp:269-272 `GetK_turb` -/
noncomputable def getKTurb (alpha kappa : ℝ) : ℝ := kappa * alpha / (1 + alpha)

/-- gw.cpp:274-278 `IsFluidTurnoverApproxOne` -/
noncomputable def turnoverOne (hr k : ℝ) : Bool :=
  if 2 * hr / Real.sqrt (3 * k) < 1 then false else true

/-- gw.cpp:54-65 `CalcEpsTurb` -/
noncomputable def epsTurb (hr kSw eps : ℝ) : ℝ :=
  if eps = -1 then (1 - min (2 / Real.sqrt 3 * hr / Real.sqrt kSw) 1) ^ (2 / 3 : ℝ) else eps

/-- gw.cpp:15-48: the constructor.  `temp` is the requested transition temperature, `hubble` the Hubble
rate at it; `v`, `alpha`, `betaH`, `eps`, `gstar` come from the bounce object. -/
noncomputable def construct (c temp alpha betaH v eps gstar hubble : ℝ) : Data :=
  let hr := getHR betaH v c
  let kSw := getKSw alpha v c
  let kappaTurb := epsTurb hr kSw eps * kappaSw alpha v c
  { transTemp := temp, alpha := alpha, betaH := betaH, vb := v, kappaSw := kappaSw alpha v c
    kSw := kSw, hr := hr, kappaTurb := kappaTurb, kTurb := getKTurb alpha kappaTurb, gstar := gstar
    hstar := hubble
    status := if betaH < 1 then .failure else if temp = -1 then .failure else .notSet }

/-- gw.cpp:67-73 `CalcPeakFrequencySoundWave`, the value -/
noncomputable def freqSw (d : Data) : ℝ :=
  26e-6 * (1 / d.hr) * (d.transTemp / 100) * (d.gstar / 100) ^ (1 / 6 : ℝ)

/-- gw.cpp:75-92 `CalcPeakAmplitudeSoundWave`, the value -/
noncomputable def ampSw (d : Data) : ℝ :=
  0.674 * 0.674 * 2.061 * 1.2e-2 * 3.57e-5 * (100 / d.gstar) ^ (1 / 3 : ℝ) *
    (if turnoverOne d.hr d.kSw then d.hr * d.kSw ^ 2
     else 2 / Real.sqrt 3 * d.hr ^ 2 * d.kSw ^ (3 / 2 : ℝ))

/-- gw.cpp:94-100 `CalcPeakFrequencyTurbulence`, the value -/
noncomputable def freqTurb (d : Data) : ℝ :=
  7.909e-5 * (1 / d.hr) * (d.transTemp / 100) * (d.gstar / 100) ^ (1 / 6 : ℝ)

/-- gw.cpp:102-107 `CalcPeakAmplitudeTurbulence`, the value -/
noncomputable def ampTurb (d : Data) : ℝ :=
  1.144e-4 * (100 / d.gstar) ^ (1 / 3 : ℝ) * d.hr * d.kTurb ^ (3 / 2 : ℝ)

/-- gw.cpp:123-126; with a peak frequency of zero the factors are infinity and zero, the product NaN. -/
noncomputable def swTerm (amp peak f : ℝ) : Flt ℝ :=
  if peak = 0 then .nan
  else .fin (amp * (4 / 7 : ℝ) ^ (-7 / 2 : ℝ) * (f / peak) ^ 3 *
    (1 + 3 / 4 * (f / peak) ^ 2) ^ (-7 / 2 : ℝ))

/-- gw.cpp:139-142; the exponent `11 / 3` is an integer division and equals 3. -/
noncomputable def turbTerm (amp peak hstar f : ℝ) : Flt ℝ :=
  if peak = 0 then .nan
  else .fin (amp * (f / peak) ^ 3 / (1 + f / peak) ^ (11 / 3 : Nat) / (1 + 8 * Real.pi * f / hstar))

/-- Sum of two doubles. -/
noncomputable def fadd : Flt ℝ → Flt ℝ → Flt ℝ
  | .fin a, .fin b => .fin (a + b)
  | _, _ => .nan

/-- gw.cpp:112-127: the sound-wave part -/
noncomputable def swPart (d : Data) (f : ℝ) : Flt ℝ × Data :=
  let d := if d.oSw = 0 then { d with oSw := ampSw d }
    else if d.fSw = 0 then { d with fSw := freqSw d } else d
  (swTerm d.oSw d.fSw f, d)

/-- gw.cpp:128-143: the turbulence part -/
noncomputable def turbPart (d : Data) (f : ℝ) : Flt ℝ × Data :=
  let d := if d.oTurb = 0 then { d with oTurb := ampTurb d }
    else if d.fTurb = 0 then { d with fTurb := freqTurb d } else d
  (turbTerm d.oTurb d.fTurb d.hstar f, d)

/-- gw.cpp:109-146 `CalcGWAmplitude` -/
noncomputable def amplitude (d : Data) (f : ℝ) (sw turb : Bool) : Flt ℝ × Data :=
  let p := if sw then (fadd (.fin 0) (swPart d f).1, (swPart d f).2) else (.fin 0, d)
  if turb then (fadd p.1 (turbPart p.2 f).1, (turbPart p.2 f).2) else p

/-- Public calls on an object; an SNR calculation evaluates the amplitude at frequencies chosen by the
GSL with the switches of the object, and sets the status (gw.cpp:148-155, 183-191). -/
inductive Call where
  | freqSw | ampSw | freqTurb | ampTurb
  | amplitude (f : ℝ) (sw turb : Bool)
  | snr (fs : List ℝ)
  | switches (sw turb : Bool)

/-- The effect of a call on the data. -/
noncomputable def call (d : Data) : Call → Data
  | .freqSw => { d with fSw := freqSw d }
  | .ampSw => { d with oSw := ampSw d }
  | .freqTurb => { d with fTurb := freqTurb d }
  | .ampTurb => { d with oTurb := ampTurb d }
  | .amplitude f sw turb => (amplitude d f sw turb).2
  | .snr fs =>
    { fs.foldl (fun d f => (amplitude d f d.swON d.turbON).2) d with status := .success }
  | .switches sw turb => { d with swON := sw, turbON := turb }

/-- gw.cpp:157-161 `SIfunc` -/
noncomputable def siFunc (f : ℝ) : ℝ := 5.76e-48 * (1 + (0.4e-3 / f) ^ 2)

/-- gw.cpp:163-167 `Rfunc` -/
noncomputable def rFunc (f : ℝ) : ℝ := 1 + (f / 25e-3) ^ 2

/-- gw.cpp:169-174 `powspec_density` -/
noncomputable def powSpec (f : ℝ) : ℝ :=
  1 / 2 * 20 / 3 * (siFunc f / (2 * Real.pi * f) ^ 4 + 3.6e-41) * rFunc f

/-- gw.cpp:176-181 `h2OmSens` -/
noncomputable def h2OmSens (f : ℝ) : ℝ :=
  4 * Real.pi ^ 2 / (3 * (100 / 3.09e19) ^ 2) * f ^ 3 * powSpec f

/-- gw.cpp:183-191 `snr_integrand`, for a finite amplitude -/
noncomputable def snrIntegrand (amp f : ℝ) : ℝ := (amp / h2OmSens f) ^ 2

/-- gw.cpp:151-152: the SNR for a given value of the integral -/
noncomputable def snr (years integral : ℝ) : ℝ := Real.sqrt (86400 * 365.25 * years * integral)

end Verif.GW
