import Verif.GW.Model

/-!
# Specification of the gravitational-wave spectrum

Formulas as in the literature the code cites, independent of the way the code evaluates them.
-/

namespace Verif.GW

open Verif

/-- Shape of the sound-wave spectrum: `x³ (7 / (4 + 3 x²))^(7/2)`. -/
noncomputable def soundShape (x : ℝ) : ℝ := x ^ 3 * (7 / (4 + 3 * x ^ 2)) ^ (7 / 2 : ℝ)

/-- Shape of the turbulence spectrum with a falling power `p`; `y` is the frequency over the Hubble
rate. -/
noncomputable def turbShape (p : ℝ) (x y : ℝ) : ℝ := x ^ 3 / ((1 + x) ^ p * (1 + 8 * Real.pi * y))

/-- The spectrum for given peaks; the falling power of the turbulence part is a parameter. -/
noncomputable def spectrum (p : ℝ) (oSw fSw oTurb fTurb hstar : ℝ) (f : ℝ) (sw turb : Bool) : ℝ :=
  (if sw then oSw * soundShape (f / fSw) else 0) +
    (if turb then oTurb * turbShape p (f / fTurb) (f / hstar) else 0)

/-- Data with which a spectrum can be calculated. -/
structure Physical (d : Data) : Prop where
  hr : 0 < d.hr
  temp : 0 < d.transTemp
  gstar : 0 < d.gstar
  hstar : 0 < d.hstar

end Verif.GW
