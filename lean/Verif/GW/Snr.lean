import Verif.GW.Model
import Mathlib.MeasureTheory.Integral.IntervalIntegral.Basic

/-!
# The signal-to-noise ratios that are reported

`gw.cpp:148-155, 183-221` and `transition_tracer.cpp:291-320`.
-/

namespace Verif.GW

open Verif Verif.Tracer

/-- The number in a double; NaN does not occur after the peaks were calculated (see `C29`). -/
def value : Flt ℝ → ℝ
  | .fin a => a
  | .nan => 0

/-- `Nintegrate_SNR`, gw.cpp:193-221.  The integral of the GSL is taken as exact; the amplitude is that of
the object when the function is called. -/
noncomputable def integrateSNR (d : Data) (fmin fmax : ℝ) : ℝ :=
  ∫ f in fmin..fmax, snrIntegrand (value (amplitude d f d.swON d.turbON).1) f

/-- `GetSNR`, gw.cpp:148-155. -/
noncomputable def getSNR (d : Data) (fmin fmax years : ℝ) : ℝ := snr years (integrateSNR d fmin fmax)

/-- What is stored of a transition, transition_tracer.cpp:295-314. -/
structure Reported where
  fSw : ℝ
  oSw : ℝ
  fTurb : ℝ
  oTurb : ℝ
  snrSw : ℝ
  snrTurb : ℝ
  snr : ℝ

/-- transition_tracer.cpp:293-314; the default of 3 years is gw.h:125. -/
noncomputable def reported (d : Data) : Reported :=
  let d := call (call (call (call d .freqSw) .ampSw) .freqTurb) .ampTurb
  { fSw := d.fSw, oSw := d.oSw, fTurb := d.fTurb, oTurb := d.oTurb
    snrSw := getSNR (call d (.switches true false)) 1e-6 10 3
    snrTurb := getSNR (call d (.switches false true)) 1e-6 10 3
    snr := getSNR (call d (.switches true true)) 1e-6 10 3 }

end Verif.GW
