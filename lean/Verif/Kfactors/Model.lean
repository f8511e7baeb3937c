import Verif.Outcome
import Mathlib.Analysis.SpecialFunctions.Exp
import Mathlib.Analysis.SpecialFunctions.Sqrt
import Mathlib.MeasureTheory.Constructions.Pi
import Mathlib.MeasureTheory.Measure.Lebesgue.Basic
import Mathlib.MeasureTheory.Integral.Bochner.Set
import Mathlib.MeasureTheory.Integral.IntervalIntegral.Basic

/-!
# The integrals `K` of the transport equations
-/

namespace Verif.Kfactors

open Outcome Real MeasureTheory

/-- `distribution_f0`, Kfactors.cpp:24-42. -/
noncomputable def f0 (E0 : ℝ) (s : ℤ) (T : ℝ) (diff : ℤ) : ℝ :=
  let beta := 1 / T
  let expv := exp (beta * E0)
  if diff = 0 then 1 / (expv + s)
  else if diff = 1 then -beta * expv / (expv + s) ^ 2
  else if diff = 2 then beta * beta * expv * (expv - s) / (expv + s) ^ 3
  else 0

/-- The switch of `K_integrand`, Kfactors.cpp:44-91. -/
noncomputable def kernel (px py pz m2 : ℝ) (switch s : ℤ) (T : ℝ) : ℝ :=
  let E0z := √ (pz * pz + m2)
  let E0 := √ (px * px + py * py + pz * pz + m2)
  if switch = 1 then -pz * pz / E0 * f0 E0 s T 2
  else if switch = 2 then f0 E0 s T 2 / (2 * E0)
  else if switch = 3 then f0 E0 s T 1 / (2 * E0)
  else if switch = 4 then (pz * pz) / (E0 * E0) * f0 E0 s T 1
  else if switch = 5 then (pz * pz) / E0 * f0 E0 s T 1
  else if switch = 6 then (E0 * E0 - pz * pz) / (2 * E0 ^ 3) * f0 E0 s T 1
  else if switch = 7 then |pz| / (2 * E0 * E0 * E0z) * (f0 E0 s T 1 / E0 - f0 E0 s T 2)
  else if switch = 8 then |pz| * f0 E0 s T 1 / (2 * E0 * E0 * E0z)
  else if switch = 9 then |pz| / (4 * E0 ^ 3 * E0z) * (f0 E0 s T 1 / E0 - f0 E0 s T 2)
  else if switch = 10 then |pz| * f0 E0 s T 0 / (2 * E0 ^ 3 * E0z)
  else 0

/-- `K_integrand`, Kfactors.cpp:44-91. -/
noncomputable def integrand (p : List ℝ) (m2 : ℝ) (switch s : ℤ) (T : ℝ) : Outcome ℝ := do
  let px ← at' p 0
  let py ← at' p 1
  let pz ← at' p 2
  ok (kernel px py pz m2 switch s T)

/-- `numint`, Kfactors.cpp:119. -/
def cutoff : ℝ := 1000

/-- `K_integration`, Kfactors.cpp:108-156, with the exact integral over the box instead of the random points of
the adaptive integrator. -/
noncomputable def integration (m2 T : ℝ) (switch s : ℤ) : ℝ :=
  (∫ p in Set.Icc (fun _ : Fin 3 => (0 : ℝ)) (fun _ => cutoff), kernel (p 0) (p 1) (p 2) m2 switch s T) * 8

/-- `Ktilde_normalization_func`, Kfactors.cpp:189-197. -/
noncomputable def tildeIntegrand (x m2 T : ℝ) (s : ℤ) : ℝ :=
  let a := m2 * (1 / T) ^ 2
  x ^ 2 / (exp (√ (a + x ^ 2)) + s)

/-- `xmax`, Kfactors.cpp:214. -/
def xmax : ℝ := 30

/-- `Ktilde_normalization`, Kfactors.cpp:199-222, with the exact integral. -/
noncomputable def tildeNorm (T : ℝ) (s : ℤ) (m2 : ℝ) : ℝ :=
  (∫ x in (0 : ℝ)..xmax, tildeIntegrand x m2 T s) * (4 * π * T ^ 3)

/-- `K_functions`, Kfactors.cpp:158-177; `none` if the program is ended by `exit`. -/
noncomputable def functions (m2 T : ℝ) (switch s : ℤ) : Option ℝ :=
  let numerator := integration m2 T switch s
  if switch > 10 then none
  else if switch = 5 ∨ switch = 6 ∨ switch = 10 then some (numerator / tildeNorm T s m2)
  else some (numerator / (-π ^ 3 * T ^ 2 * 2 / 3))

/-! ### The interpolated functions -/

/-- `CalculateNorm1`, KfactorsinterpolatedGSL.cpp:26-29. -/
noncomputable def norm1 (T : ℝ) : ℝ := -π ^ 3 * T ^ 2 * 2 / 3

/-- The tables and their interpolations: the raw integrals as functions of `m²` and `T`, the norms as functions of
`m²/T²`. -/
structure Tables where
  k1p : ℝ → ℝ → ℝ
  k1m : ℝ → ℝ → ℝ
  k2p : ℝ → ℝ → ℝ
  k4p : ℝ → ℝ → ℝ
  k4m : ℝ → ℝ → ℝ
  k5p : ℝ → ℝ → ℝ
  k5m : ℝ → ℝ → ℝ
  k6p : ℝ → ℝ → ℝ
  k8p : ℝ → ℝ → ℝ
  k9p : ℝ → ℝ → ℝ
  fermionNorm : ℝ → ℝ
  bosonNorm : ℝ → ℝ

/-- `CalculateNorm2`, KfactorsinterpolatedGSL.cpp:31-59. -/
noncomputable def norm2 (t : Tables) (m2 T : ℝ) (s : ℤ) : ℝ :=
  (if s = 1 then t.fermionNorm (m2 / T ^ 2) else t.bosonNorm (m2 / T ^ 2)) * T ^ 3

/-- `K1fermion_normalized`, KfactorsinterpolatedGSL.cpp:392-397. -/
noncomputable def k1fermion (t : Tables) (m2 T : ℝ) : ℝ := t.k1p m2 T / norm1 T

/-- `K1boson_normalized`, KfactorsinterpolatedGSL.cpp:399-402. -/
noncomputable def k1boson (t : Tables) (m2 T : ℝ) : ℝ := t.k1m m2 T / norm1 T

/-- `K2fermion_normalized`, KfactorsinterpolatedGSL.cpp:404-407. -/
noncomputable def k2fermion (t : Tables) (m2 T : ℝ) : ℝ := t.k2p m2 T / norm1 T

/-- `K4fermion_normalized`, KfactorsinterpolatedGSL.cpp:409-412. -/
noncomputable def k4fermion (t : Tables) (m2 T : ℝ) : ℝ := t.k4p m2 T / norm1 T

/-- `K4boson_normalized`, KfactorsinterpolatedGSL.cpp:414-417. -/
noncomputable def k4boson (t : Tables) (m2 T : ℝ) : ℝ := t.k4m m2 T / norm1 T

/-- `K5fermion_normalized`, KfactorsinterpolatedGSL.cpp:419-422. -/
noncomputable def k5fermion (t : Tables) (m2 T : ℝ) : ℝ := t.k5p m2 T / norm2 t m2 T 1

/-- `K5boson_normalized`, KfactorsinterpolatedGSL.cpp:424-427. -/
noncomputable def k5boson (t : Tables) (m2 T : ℝ) : ℝ := t.k5m m2 T / norm2 t m2 T (-1)

/-- `K6fermion_normalized`, KfactorsinterpolatedGSL.cpp:429-432. -/
noncomputable def k6fermion (t : Tables) (m2 T : ℝ) : ℝ := t.k6p m2 T / norm2 t m2 T 1

/-- `K8fermion_normalized`, KfactorsinterpolatedGSL.cpp:434-437. -/
noncomputable def k8fermion (t : Tables) (m2 T : ℝ) : ℝ := t.k8p m2 T / norm2 t m2 T 1

/-- `K9fermion_normalized`, KfactorsinterpolatedGSL.cpp:439-442. -/
noncomputable def k9fermion (t : Tables) (m2 T : ℝ) : ℝ := t.k9p m2 T / norm1 T

/-- The values that `Kfactor_grid` puts into the tables, Kfactor_grid.cpp:34-40 and 179-188; `K9` of a vanishing
mass is that of a small one. -/
def produced (k : Tables) (m2 T : ℝ) : Prop :=
  k.k1p m2 T = integration m2 T 1 1 ∧ k.k2p m2 T = integration m2 T 2 1 ∧ k.k4p m2 T = integration m2 T 4 1 ∧
  k.k5p m2 T = integration m2 T 5 1 ∧ k.k6p m2 T = integration m2 T 6 1 ∧ k.k8p m2 T = integration m2 T 8 1 ∧
  k.k9p m2 T = integration (max m2 (1 / 10 ^ 15)) T 9 1 ∧ k.k1m m2 T = integration m2 T 1 (-1) ∧
  k.k4m m2 T = integration m2 T 4 (-1) ∧ k.k5m m2 T = integration m2 T 5 (-1) ∧
  k.bosonNorm (m2 / T ^ 2) = tildeNorm 1 (-1) (m2 / T ^ 2) ∧
  k.fermionNorm (m2 / T ^ 2) = tildeNorm 1 1 (m2 / T ^ 2)

end Verif.Kfactors
