import Mathlib.Algebra.Field.Defs

/-!
# The published fluid equations

Chemical potentials `μ` and velocities `u` of the left-handed top and bottom quarks, the right-handed top
antiquark and the Higgs bosons.
-/

namespace Verif.Fh.Spec

variable {K : Type} [Field K]

/-- Rates and statistical factors. -/
structure Rates (K : Type) where
  gY : K
  gM : K
  gW : K
  gH : K
  gSS : K
  k1t : K
  k1b : K

/-- The potential of each light left-handed quark and each light right-handed antiquark, from baryon number:
a strong sphaleron creates one of each quark. -/
def light (r : Rates K) (t b tc : K) : K := r.k1t * t + r.k1b * b - r.k1t * tc

/-- The force of the strong sphaleron: the sum over the six left-handed quarks and the six right-handed
antiquarks, nine of them light. -/
def sphaleron (r : Rates K) (t b tc : K) : K := t + b + tc + 9 * light r t b tc

/-- Reactions of the left-handed top quark. -/
def collT (r : Rates K) (t b tc h : K) : K :=
  r.gY * (t + tc + h) + 2 * r.gM * (t + tc) + r.gW * (t - b) + r.gSS * sphaleron r t b tc

/-- Reactions of the left-handed bottom quark. -/
def collB (r : Rates K) (t b tc h : K) : K :=
  r.gY * (b + tc + h) + r.gW * (b - t) + r.gSS * sphaleron r t b tc

/-- Reactions of the right-handed top antiquark. -/
def collTc (r : Rates K) (t b tc h : K) : K :=
  r.gY * (t + tc + h) + r.gY * (b + tc + h) + 2 * r.gM * (t + tc) + r.gSS * sphaleron r t b tc

/-- Reactions of the Higgs bosons. -/
def collH (r : Rates K) (t b tc h : K) : K :=
  3 / 4 * (r.gY * (t + tc + h) + r.gY * (b + tc + h)) + r.gH * h

/-- The two equations of one kind of particles: `v K₁ μ' + v K₂ (m²)' μ + u' = C` and
`−K₄ μ' + v K₅ u' + v K₆ (m²)' u + Γ u = S`. -/
def Fluid (v k1 k2 k4 k5 k6 dm gtot coll s μ u μ' u' : K) : Prop :=
  v * k1 * μ' + v * k2 * dm * μ + u' = coll ∧ -k4 * μ' + v * k5 * u' + v * k6 * dm * u + gtot * u = s

/-- The equation without velocities: the derivative of the second equation without `v K₅ u'` and with slowly
varying coefficients, after elimination of `u'`. -/
def Diffusion (v k1 k2 k4 k6 dm gtot coll s' μ μ' μ'' : K) : Prop :=
  ∃ u', v * k1 * μ' + v * k2 * dm * μ + u' = coll ∧ -k4 * μ'' + v * k6 * dm * u' + gtot * u' = s'

/-- The sum over the three left-handed doublets, each with the average of its quarks. -/
def leftHanded (r : Rates K) (t b tc : K) : K :=
  (t + b) / 2 + (light r t b tc + light r t b tc) / 2 + (light r t b tc + light r t b tc) / 2

end Verif.Fh.Spec
