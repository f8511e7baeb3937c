import Verif.GW.Props

/-!
# C60: the turbulence part
-/

namespace Verif.GW

/-- When the amplitude of the turbulence is known, a missing frequency is calculated and a known one is kept. -/
theorem C60_turbulence_frequency (d : Data) (f : ℝ) (ho : d.oTurb ≠ 0) :
    (d.fTurb = 0 → (turbPart d f).2.fTurb = freqTurb d ∧ (turbPart d f).1 = turbTerm d.oTurb (freqTurb d) d.hstar f) ∧
    (d.fTurb ≠ 0 → (turbPart d f).2 = d ∧ (turbPart d f).1 = turbTerm d.oTurb d.fTurb d.hstar f) := by
  constructor <;> intro h <;> simp [turbPart, ho, h]

end Verif.GW
