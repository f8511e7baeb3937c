import Verif.Fh.Model
import Mathlib.Algebra.CharZero.Defs
import Mathlib.Data.Rat.Cast.CharZero
import Mathlib.Tactic.FieldSimp
import Mathlib.Tactic.NormNum
import Mathlib.Tactic.Ring

/-!
# C91: the rates in the fluid equations
-/

namespace Verif.Fh

namespace Spec

/-- The interaction rates of Fromme and Huber at a temperature: `mW²/(50 T)` for the Higgs number, `4.2e-3 T` for the top Yukawa
interaction, `mt²/(63 T)` for helicity flips and `4.9e-4 T` for the strong sphalerons; the total rates give the diffusion
constants `20/T` of the Higgs bosons and `6/T` of the quarks as `K4 / (K1 Γ)`. -/
structure FrommeHuber {K : Type} [Field K] (c : Coeffs K) (gH gY gM gSS gHTot gTTot gBTot gW : K) : Prop where
  higgs : 50 * c.tc * gH = c.mw2
  yukawa : 1000 * gY = 42 / 10 * c.tc
  flip : 63 * c.tc * gM = c.mt2
  sphaleron : 10000 * gSS = 49 / 10 * c.tc
  higgsTotal : c.k4h / (c.k1h * gHTot) = 20 / c.tc
  topTotal : c.k4t / (c.k1t * gTTot) = 6 / c.tc
  bottomTotal : c.k4b / (c.k1b * gBTot) = 6 / c.tc
  w : gW = gHTot

end Spec

/-- The rates in the equations are those of the publication. -/
theorem C91_rates {K : Type} [Field K] [CharZero K] (c : Coeffs K) (ht : c.tc ≠ 0) (h1 : c.k4h ≠ 0) (h2 : c.k1h ≠ 0)
    (h3 : c.k4t ≠ 0) (h4 : c.k1t ≠ 0) (h5 : c.k4b ≠ 0) (h6 : c.k1b ≠ 0) :
    Spec.FrommeHuber c (gH c) (gY c) (gM c) (gSS c) (gHTot c) (gTTot c) (gBTot c) (gW c) := by
  refine ⟨?_, ?_, ?_, ?_, ?_, ?_, ?_, rfl⟩
  · rw [gH]; field_simp
  · rw [gY]; ring
  · rw [gM]; field_simp
  · rw [gSS]; ring
  · rw [gHTot]; field_simp
  · rw [gTTot]; field_simp
  · rw [gBTot]; field_simp

example : gH (⟨1, 1, 1, 1, 1, 1, 1, 1, 1, 1, 1, 1, 1, 1, 1, 6400, 128, 1⟩ : Coeffs ℚ) = 1 := by norm_num [gH]

end Verif.Fh
