import Verif.Lagrangian.N2HDM.Model
import Verif.Lagrangian.Drops
import Mathlib.LinearAlgebra.Matrix.Notation

/-!
# Entries of the tensors of the next-to-minimal two Higgs doublet model
-/

set_option linter.unusedSectionVars false
set_option linter.unusedSimpArgs false
set_option linter.unusedVariables false

namespace Verif.Lagrangian.N2HDM

open Verif.Potential
open Verif.Potential.Spec (Symmetrises)

section Lists
variable {K : Type} [Field K]

/-- The entries of `l2` which are not written as zero. -/
def l2s (p : Par K) : Assign K :=
  [([0, 0], p.u1), ([0, 1], -p.RealMMix), ([1, 0], -p.RealMMix), ([1, 1], p.u2), ([2, 2], p.u1),
   ([2, 3], -p.RealMMix), ([3, 2], -p.RealMMix), ([3, 3], p.u2), ([4, 4], p.u1),
   ([4, 5], -p.RealMMix), ([5, 4], -p.RealMMix), ([5, 5], p.u2), ([6, 6], p.u1),
   ([6, 7], -p.RealMMix), ([7, 6], -p.RealMMix), ([7, 7], p.u2), ([8, 8], p.Nus)]

/-- The entries of `l4_0` which are not written as zero. -/
def l4s_0 (p : Par K) : Assign K :=
  [([0, 0, 0, 0], 3 * p.L1), ([0, 0, 1, 1], p.L3 + p.L4 + p.RL5), ([0, 0, 2, 2], p.L1),
   ([0, 0, 3, 3], p.L3 + p.L4 - p.RL5), ([0, 0, 4, 4], p.L1), ([0, 0, 5, 5], p.L3),
   ([0, 0, 6, 6], p.L1), ([0, 0, 7, 7], p.L3), ([0, 0, 8, 8], p.NL7), ([0, 1, 2, 3], p.RL5),
   ([0, 1, 4, 5], p.L4 / 2 + p.RL5 / 2), ([0, 1, 6, 7], p.L4 / 2 + p.RL5 / 2),
   ([0, 3, 4, 7], -p.L4 / 2 + p.RL5 / 2), ([0, 3, 5, 6], p.L4 / 2 - p.RL5 / 2)]

/-- The entries of `l4_1` which are not written as zero. -/
def l4s_1 (p : Par K) : Assign K :=
  [([1, 1, 1, 1], 3 * p.L2), ([1, 1, 2, 2], p.L3 + p.L4 - p.RL5), ([1, 1, 3, 3], p.L2),
   ([1, 1, 4, 4], p.L3), ([1, 1, 5, 5], p.L2), ([1, 1, 6, 6], p.L3), ([1, 1, 7, 7], p.L2),
   ([1, 1, 8, 8], p.NL8), ([1, 2, 4, 7], p.L4 / 2 - p.RL5 / 2),
   ([1, 2, 5, 6], -p.L4 / 2 + p.RL5 / 2)]

/-- The entries of `l4_2` which are not written as zero. -/
def l4s_2 (p : Par K) : Assign K :=
  [([2, 2, 2, 2], 3 * p.L1), ([2, 2, 3, 3], p.L3 + p.L4 + p.RL5), ([2, 2, 4, 4], p.L1),
   ([2, 2, 5, 5], p.L3), ([2, 2, 6, 6], p.L1), ([2, 2, 7, 7], p.L3), ([2, 2, 8, 8], p.NL7),
   ([2, 3, 4, 5], p.L4 / 2 + p.RL5 / 2), ([2, 3, 6, 7], p.L4 / 2 + p.RL5 / 2)]

/-- The entries of `l4_3` which are not written as zero. -/
def l4s_3 (p : Par K) : Assign K :=
  [([3, 3, 3, 3], 3 * p.L2), ([3, 3, 4, 4], p.L3), ([3, 3, 5, 5], p.L2), ([3, 3, 6, 6], p.L3),
   ([3, 3, 7, 7], p.L2), ([3, 3, 8, 8], p.NL8)]

/-- The entries of `l4_4` which are not written as zero. -/
def l4s_4 (p : Par K) : Assign K :=
  [([4, 4, 4, 4], 3 * p.L1), ([4, 4, 5, 5], p.L3 + p.L4 + p.RL5), ([4, 4, 6, 6], p.L1),
   ([4, 4, 7, 7], p.L3 + p.L4 - p.RL5), ([4, 4, 8, 8], p.NL7), ([4, 5, 6, 7], p.RL5)]

/-- The entries of `l4_5` which are not written as zero. -/
def l4s_5 (p : Par K) : Assign K :=
  [([5, 5, 5, 5], 3 * p.L2), ([5, 5, 6, 6], p.L3 + p.L4 - p.RL5), ([5, 5, 7, 7], p.L2),
   ([5, 5, 8, 8], p.NL8)]

/-- The entries of `l4_6` which are not written as zero. -/
def l4s_6 (p : Par K) : Assign K :=
  [([6, 6, 6, 6], 3 * p.L1), ([6, 6, 7, 7], p.L3 + p.L4 + p.RL5), ([6, 6, 8, 8], p.NL7)]

/-- The entries of `l4_7` which are not written as zero. -/
def l4s_7 (p : Par K) : Assign K :=
  [([7, 7, 7, 7], 3 * p.L2), ([7, 7, 8, 8], p.NL8)]

/-- The entries of `l4_8` which are not written as zero. -/
def l4s_8 (p : Par K) : Assign K :=
  [([8, 8, 8, 8], 3 * p.NL6)]

/-- The entries of `l4` which are not written as zero. -/
def l4s (p : Par K) : Assign K :=
  [([0, 0, 0, 0], 3 * p.L1), ([0, 0, 1, 1], p.L3 + p.L4 + p.RL5), ([0, 0, 2, 2], p.L1),
   ([0, 0, 3, 3], p.L3 + p.L4 - p.RL5), ([0, 0, 4, 4], p.L1), ([0, 0, 5, 5], p.L3),
   ([0, 0, 6, 6], p.L1), ([0, 0, 7, 7], p.L3), ([0, 0, 8, 8], p.NL7), ([0, 1, 2, 3], p.RL5),
   ([0, 1, 4, 5], p.L4 / 2 + p.RL5 / 2), ([0, 1, 6, 7], p.L4 / 2 + p.RL5 / 2),
   ([0, 3, 4, 7], -p.L4 / 2 + p.RL5 / 2), ([0, 3, 5, 6], p.L4 / 2 - p.RL5 / 2),
   ([1, 1, 1, 1], 3 * p.L2), ([1, 1, 2, 2], p.L3 + p.L4 - p.RL5), ([1, 1, 3, 3], p.L2),
   ([1, 1, 4, 4], p.L3), ([1, 1, 5, 5], p.L2), ([1, 1, 6, 6], p.L3), ([1, 1, 7, 7], p.L2),
   ([1, 1, 8, 8], p.NL8), ([1, 2, 4, 7], p.L4 / 2 - p.RL5 / 2),
   ([1, 2, 5, 6], -p.L4 / 2 + p.RL5 / 2), ([2, 2, 2, 2], 3 * p.L1),
   ([2, 2, 3, 3], p.L3 + p.L4 + p.RL5), ([2, 2, 4, 4], p.L1), ([2, 2, 5, 5], p.L3),
   ([2, 2, 6, 6], p.L1), ([2, 2, 7, 7], p.L3), ([2, 2, 8, 8], p.NL7),
   ([2, 3, 4, 5], p.L4 / 2 + p.RL5 / 2), ([2, 3, 6, 7], p.L4 / 2 + p.RL5 / 2),
   ([3, 3, 3, 3], 3 * p.L2), ([3, 3, 4, 4], p.L3), ([3, 3, 5, 5], p.L2), ([3, 3, 6, 6], p.L3),
   ([3, 3, 7, 7], p.L2), ([3, 3, 8, 8], p.NL8), ([4, 4, 4, 4], 3 * p.L1),
   ([4, 4, 5, 5], p.L3 + p.L4 + p.RL5), ([4, 4, 6, 6], p.L1), ([4, 4, 7, 7], p.L3 + p.L4 - p.RL5),
   ([4, 4, 8, 8], p.NL7), ([4, 5, 6, 7], p.RL5), ([5, 5, 5, 5], 3 * p.L2),
   ([5, 5, 6, 6], p.L3 + p.L4 - p.RL5), ([5, 5, 7, 7], p.L2), ([5, 5, 8, 8], p.NL8),
   ([6, 6, 6, 6], 3 * p.L1), ([6, 6, 7, 7], p.L3 + p.L4 + p.RL5), ([6, 6, 8, 8], p.NL7),
   ([7, 7, 7, 7], 3 * p.L2), ([7, 7, 8, 8], p.NL8), ([8, 8, 8, 8], 3 * p.NL6)]

/-- The entries of `g2h2_00` which are not written as zero. -/
def g2h2s_00 (g gs : K) : Assign K :=
  [([0, 0, 0, 0], g * g / 2), ([0, 0, 1, 1], g * g / 2), ([0, 0, 2, 2], g * g / 2),
   ([0, 0, 3, 3], g * g / 2), ([0, 0, 4, 4], g * g / 2), ([0, 0, 5, 5], g * g / 2),
   ([0, 0, 6, 6], g * g / 2), ([0, 0, 7, 7], g * g / 2)]

/-- The entries of `g2h2_03` which are not written as zero. -/
def g2h2s_03 (g gs : K) : Assign K :=
  [([0, 3, 0, 6], gs * g / 2), ([0, 3, 1, 7], gs * g / 2), ([0, 3, 2, 4], gs * g / 2),
   ([0, 3, 3, 5], gs * g / 2), ([0, 3, 4, 2], gs * g / 2), ([0, 3, 5, 3], gs * g / 2),
   ([0, 3, 6, 0], gs * g / 2), ([0, 3, 7, 1], gs * g / 2)]

/-- The entries of `g2h2_11` which are not written as zero. -/
def g2h2s_11 (g gs : K) : Assign K :=
  [([1, 1, 0, 0], g * g / 2), ([1, 1, 1, 1], g * g / 2), ([1, 1, 2, 2], g * g / 2),
   ([1, 1, 3, 3], g * g / 2), ([1, 1, 4, 4], g * g / 2), ([1, 1, 5, 5], g * g / 2),
   ([1, 1, 6, 6], g * g / 2), ([1, 1, 7, 7], g * g / 2)]

/-- The entries of `g2h2_13` which are not written as zero. -/
def g2h2s_13 (g gs : K) : Assign K :=
  [([1, 3, 0, 4], gs * g / 2), ([1, 3, 1, 5], gs * g / 2), ([1, 3, 2, 6], -gs * g / 2),
   ([1, 3, 3, 7], -gs * g / 2), ([1, 3, 4, 0], gs * g / 2), ([1, 3, 5, 1], gs * g / 2),
   ([1, 3, 6, 2], -gs * g / 2), ([1, 3, 7, 3], -gs * g / 2)]

/-- The entries of `g2h2_22` which are not written as zero. -/
def g2h2s_22 (g gs : K) : Assign K :=
  [([2, 2, 0, 0], g * g / 2), ([2, 2, 1, 1], g * g / 2), ([2, 2, 2, 2], g * g / 2),
   ([2, 2, 3, 3], g * g / 2), ([2, 2, 4, 4], g * g / 2), ([2, 2, 5, 5], g * g / 2),
   ([2, 2, 6, 6], g * g / 2), ([2, 2, 7, 7], g * g / 2)]

/-- The entries of `g2h2_23` which are not written as zero. -/
def g2h2s_23 (g gs : K) : Assign K :=
  [([2, 3, 0, 0], g * gs / 2), ([2, 3, 1, 1], g * gs / 2), ([2, 3, 2, 2], g * gs / 2),
   ([2, 3, 3, 3], g * gs / 2), ([2, 3, 4, 4], -g * gs / 2), ([2, 3, 5, 5], -g * gs / 2),
   ([2, 3, 6, 6], -g * gs / 2), ([2, 3, 7, 7], -g * gs / 2)]

/-- The entries of `g2h2_30` which are not written as zero. -/
def g2h2s_30 (g gs : K) : Assign K :=
  [([3, 0, 0, 6], gs * g / 2), ([3, 0, 1, 7], gs * g / 2), ([3, 0, 2, 4], gs * g / 2),
   ([3, 0, 3, 5], gs * g / 2), ([3, 0, 4, 2], gs * g / 2), ([3, 0, 5, 3], gs * g / 2),
   ([3, 0, 6, 0], gs * g / 2), ([3, 0, 7, 1], gs * g / 2)]

/-- The entries of `g2h2_31` which are not written as zero. -/
def g2h2s_31 (g gs : K) : Assign K :=
  [([3, 1, 0, 4], gs * g / 2), ([3, 1, 1, 5], gs * g / 2), ([3, 1, 2, 6], -gs * g / 2),
   ([3, 1, 3, 7], -gs * g / 2), ([3, 1, 4, 0], gs * g / 2), ([3, 1, 5, 1], gs * g / 2),
   ([3, 1, 6, 2], -gs * g / 2), ([3, 1, 7, 3], -gs * g / 2)]

/-- The entries of `g2h2_32` which are not written as zero. -/
def g2h2s_32 (g gs : K) : Assign K :=
  [([3, 2, 0, 0], g * gs / 2), ([3, 2, 1, 1], g * gs / 2), ([3, 2, 2, 2], g * gs / 2),
   ([3, 2, 3, 3], g * gs / 2), ([3, 2, 4, 4], -g * gs / 2), ([3, 2, 5, 5], -g * gs / 2),
   ([3, 2, 6, 6], -g * gs / 2), ([3, 2, 7, 7], -g * gs / 2)]

/-- The entries of `g2h2_33` which are not written as zero. -/
def g2h2s_33 (g gs : K) : Assign K :=
  [([3, 3, 0, 0], gs * gs / 2), ([3, 3, 1, 1], gs * gs / 2), ([3, 3, 2, 2], gs * gs / 2),
   ([3, 3, 3, 3], gs * gs / 2), ([3, 3, 4, 4], gs * gs / 2), ([3, 3, 5, 5], gs * gs / 2),
   ([3, 3, 6, 6], gs * gs / 2), ([3, 3, 7, 7], gs * gs / 2)]

/-- The entries of `g2h2` which are not written as zero. -/
def g2h2s (g gs : K) : Assign K :=
  [([0, 0, 0, 0], g * g / 2), ([0, 0, 1, 1], g * g / 2), ([0, 0, 2, 2], g * g / 2),
   ([0, 0, 3, 3], g * g / 2), ([0, 0, 4, 4], g * g / 2), ([0, 0, 5, 5], g * g / 2),
   ([0, 0, 6, 6], g * g / 2), ([0, 0, 7, 7], g * g / 2), ([0, 3, 0, 6], gs * g / 2),
   ([0, 3, 1, 7], gs * g / 2), ([0, 3, 2, 4], gs * g / 2), ([0, 3, 3, 5], gs * g / 2),
   ([0, 3, 4, 2], gs * g / 2), ([0, 3, 5, 3], gs * g / 2), ([0, 3, 6, 0], gs * g / 2),
   ([0, 3, 7, 1], gs * g / 2), ([1, 1, 0, 0], g * g / 2), ([1, 1, 1, 1], g * g / 2),
   ([1, 1, 2, 2], g * g / 2), ([1, 1, 3, 3], g * g / 2), ([1, 1, 4, 4], g * g / 2),
   ([1, 1, 5, 5], g * g / 2), ([1, 1, 6, 6], g * g / 2), ([1, 1, 7, 7], g * g / 2),
   ([1, 3, 0, 4], gs * g / 2), ([1, 3, 1, 5], gs * g / 2), ([1, 3, 2, 6], -gs * g / 2),
   ([1, 3, 3, 7], -gs * g / 2), ([1, 3, 4, 0], gs * g / 2), ([1, 3, 5, 1], gs * g / 2),
   ([1, 3, 6, 2], -gs * g / 2), ([1, 3, 7, 3], -gs * g / 2), ([2, 2, 0, 0], g * g / 2),
   ([2, 2, 1, 1], g * g / 2), ([2, 2, 2, 2], g * g / 2), ([2, 2, 3, 3], g * g / 2),
   ([2, 2, 4, 4], g * g / 2), ([2, 2, 5, 5], g * g / 2), ([2, 2, 6, 6], g * g / 2),
   ([2, 2, 7, 7], g * g / 2), ([2, 3, 0, 0], g * gs / 2), ([2, 3, 1, 1], g * gs / 2),
   ([2, 3, 2, 2], g * gs / 2), ([2, 3, 3, 3], g * gs / 2), ([2, 3, 4, 4], -g * gs / 2),
   ([2, 3, 5, 5], -g * gs / 2), ([2, 3, 6, 6], -g * gs / 2), ([2, 3, 7, 7], -g * gs / 2),
   ([3, 0, 0, 6], gs * g / 2), ([3, 0, 1, 7], gs * g / 2), ([3, 0, 2, 4], gs * g / 2),
   ([3, 0, 3, 5], gs * g / 2), ([3, 0, 4, 2], gs * g / 2), ([3, 0, 5, 3], gs * g / 2),
   ([3, 0, 6, 0], gs * g / 2), ([3, 0, 7, 1], gs * g / 2), ([3, 1, 0, 4], gs * g / 2),
   ([3, 1, 1, 5], gs * g / 2), ([3, 1, 2, 6], -gs * g / 2), ([3, 1, 3, 7], -gs * g / 2),
   ([3, 1, 4, 0], gs * g / 2), ([3, 1, 5, 1], gs * g / 2), ([3, 1, 6, 2], -gs * g / 2),
   ([3, 1, 7, 3], -gs * g / 2), ([3, 2, 0, 0], g * gs / 2), ([3, 2, 1, 1], g * gs / 2),
   ([3, 2, 2, 2], g * gs / 2), ([3, 2, 3, 3], g * gs / 2), ([3, 2, 4, 4], -g * gs / 2),
   ([3, 2, 5, 5], -g * gs / 2), ([3, 2, 6, 6], -g * gs / 2), ([3, 2, 7, 7], -g * gs / 2),
   ([3, 3, 0, 0], gs * gs / 2), ([3, 3, 1, 1], gs * gs / 2), ([3, 3, 2, 2], gs * gs / 2),
   ([3, 3, 3, 3], gs * gs / 2), ([3, 3, 4, 4], gs * gs / 2), ([3, 3, 5, 5], gs * gs / 2),
   ([3, 3, 6, 6], gs * gs / 2), ([3, 3, 7, 7], gs * gs / 2)]

theorem l2_drops (p : Par K) : Drops (l2 p) (l2s p) := by
  unfold l2 l2s
  repeat (first | exact Drops.nil | refine Drops.keep _ ?_ | refine Drops.drop _ ?_)

theorem l4_0_drops (p : Par K) : Drops (l4_0 p) (l4s_0 p) := by
  unfold l4_0 l4s_0
  repeat (first | exact Drops.nil | refine Drops.keep _ ?_ | refine Drops.drop _ ?_)

theorem l4_1_drops (p : Par K) : Drops (l4_1 p) (l4s_1 p) := by
  unfold l4_1 l4s_1
  repeat (first | exact Drops.nil | refine Drops.keep _ ?_ | refine Drops.drop _ ?_)

theorem l4_2_drops (p : Par K) : Drops (l4_2 p) (l4s_2 p) := by
  unfold l4_2 l4s_2
  repeat (first | exact Drops.nil | refine Drops.keep _ ?_ | refine Drops.drop _ ?_)

theorem l4_3_drops (p : Par K) : Drops (l4_3 p) (l4s_3 p) := by
  unfold l4_3 l4s_3
  repeat (first | exact Drops.nil | refine Drops.keep _ ?_ | refine Drops.drop _ ?_)

theorem l4_4_drops (p : Par K) : Drops (l4_4 p) (l4s_4 p) := by
  unfold l4_4 l4s_4
  repeat (first | exact Drops.nil | refine Drops.keep _ ?_ | refine Drops.drop _ ?_)

theorem l4_5_drops (p : Par K) : Drops (l4_5 p) (l4s_5 p) := by
  unfold l4_5 l4s_5
  repeat (first | exact Drops.nil | refine Drops.keep _ ?_ | refine Drops.drop _ ?_)

theorem l4_6_drops (p : Par K) : Drops (l4_6 p) (l4s_6 p) := by
  unfold l4_6 l4s_6
  repeat (first | exact Drops.nil | refine Drops.keep _ ?_ | refine Drops.drop _ ?_)

theorem l4_7_drops (p : Par K) : Drops (l4_7 p) (l4s_7 p) := by
  unfold l4_7 l4s_7
  repeat (first | exact Drops.nil | refine Drops.keep _ ?_ | refine Drops.drop _ ?_)

theorem l4_8_drops (p : Par K) : Drops (l4_8 p) (l4s_8 p) := by
  unfold l4_8 l4s_8
  repeat (first | exact Drops.nil | refine Drops.keep _ ?_ | refine Drops.drop _ ?_)

theorem l4_drops (p : Par K) : Drops (l4 p) (l4s p) :=
  (l4_0_drops p).append ((l4_1_drops p).append ((l4_2_drops p).append ((l4_3_drops p).append
    ((l4_4_drops p).append ((l4_5_drops p).append ((l4_6_drops p).append ((l4_7_drops
    p).append ((l4_8_drops p).append .nil))))))))

theorem g2h2_00_drops (g gs : K) : Drops (g2h2_00 g gs) (g2h2s_00 g gs) := by
  unfold g2h2_00 g2h2s_00
  repeat (first | exact Drops.nil | refine Drops.keep _ ?_ | refine Drops.drop _ ?_)

theorem g2h2_01_drops (g gs : K) : Drops (g2h2_01 g gs) ([]) := by
  unfold g2h2_01
  repeat (first | exact Drops.nil | refine Drops.keep _ ?_ | refine Drops.drop _ ?_)

theorem g2h2_02_drops (g gs : K) : Drops (g2h2_02 g gs) ([]) := by
  unfold g2h2_02
  repeat (first | exact Drops.nil | refine Drops.keep _ ?_ | refine Drops.drop _ ?_)

theorem g2h2_03_drops (g gs : K) : Drops (g2h2_03 g gs) (g2h2s_03 g gs) := by
  unfold g2h2_03 g2h2s_03
  repeat (first | exact Drops.nil | refine Drops.keep _ ?_ | refine Drops.drop _ ?_)

theorem g2h2_10_drops (g gs : K) : Drops (g2h2_10 g gs) ([]) := by
  unfold g2h2_10
  repeat (first | exact Drops.nil | refine Drops.keep _ ?_ | refine Drops.drop _ ?_)

theorem g2h2_11_drops (g gs : K) : Drops (g2h2_11 g gs) (g2h2s_11 g gs) := by
  unfold g2h2_11 g2h2s_11
  repeat (first | exact Drops.nil | refine Drops.keep _ ?_ | refine Drops.drop _ ?_)

theorem g2h2_12_drops (g gs : K) : Drops (g2h2_12 g gs) ([]) := by
  unfold g2h2_12
  repeat (first | exact Drops.nil | refine Drops.keep _ ?_ | refine Drops.drop _ ?_)

theorem g2h2_13_drops (g gs : K) : Drops (g2h2_13 g gs) (g2h2s_13 g gs) := by
  unfold g2h2_13 g2h2s_13
  repeat (first | exact Drops.nil | refine Drops.keep _ ?_ | refine Drops.drop _ ?_)

theorem g2h2_20_drops (g gs : K) : Drops (g2h2_20 g gs) ([]) := by
  unfold g2h2_20
  repeat (first | exact Drops.nil | refine Drops.keep _ ?_ | refine Drops.drop _ ?_)

theorem g2h2_21_drops (g gs : K) : Drops (g2h2_21 g gs) ([]) := by
  unfold g2h2_21
  repeat (first | exact Drops.nil | refine Drops.keep _ ?_ | refine Drops.drop _ ?_)

theorem g2h2_22_drops (g gs : K) : Drops (g2h2_22 g gs) (g2h2s_22 g gs) := by
  unfold g2h2_22 g2h2s_22
  repeat (first | exact Drops.nil | refine Drops.keep _ ?_ | refine Drops.drop _ ?_)

theorem g2h2_23_drops (g gs : K) : Drops (g2h2_23 g gs) (g2h2s_23 g gs) := by
  unfold g2h2_23 g2h2s_23
  repeat (first | exact Drops.nil | refine Drops.keep _ ?_ | refine Drops.drop _ ?_)

theorem g2h2_30_drops (g gs : K) : Drops (g2h2_30 g gs) (g2h2s_30 g gs) := by
  unfold g2h2_30 g2h2s_30
  repeat (first | exact Drops.nil | refine Drops.keep _ ?_ | refine Drops.drop _ ?_)

theorem g2h2_31_drops (g gs : K) : Drops (g2h2_31 g gs) (g2h2s_31 g gs) := by
  unfold g2h2_31 g2h2s_31
  repeat (first | exact Drops.nil | refine Drops.keep _ ?_ | refine Drops.drop _ ?_)

theorem g2h2_32_drops (g gs : K) : Drops (g2h2_32 g gs) (g2h2s_32 g gs) := by
  unfold g2h2_32 g2h2s_32
  repeat (first | exact Drops.nil | refine Drops.keep _ ?_ | refine Drops.drop _ ?_)

theorem g2h2_33_drops (g gs : K) : Drops (g2h2_33 g gs) (g2h2s_33 g gs) := by
  unfold g2h2_33 g2h2s_33
  repeat (first | exact Drops.nil | refine Drops.keep _ ?_ | refine Drops.drop _ ?_)

theorem g2h2_drops (g gs : K) : Drops (g2h2 g gs) (g2h2s g gs) :=
  (g2h2_00_drops g gs).append ((g2h2_01_drops g gs).append ((g2h2_02_drops g gs).append
    ((g2h2_03_drops g gs).append ((g2h2_10_drops g gs).append ((g2h2_11_drops g gs).append
    ((g2h2_12_drops g gs).append ((g2h2_13_drops g gs).append ((g2h2_20_drops g gs).append
    ((g2h2_21_drops g gs).append ((g2h2_22_drops g gs).append ((g2h2_23_drops g gs).append
    ((g2h2_30_drops g gs).append ((g2h2_31_drops g gs).append ((g2h2_32_drops g gs).append
    ((g2h2_33_drops g gs).append .nil)))))))))))))))

theorem l2_distinct (p : Par K) : Distinct (l2 p) := by
  simp only [Distinct, l2, List.map_cons, List.map_nil]; decide +kernel

theorem l2s_distinct (p : Par K) : Distinct (l2s p) := by
  simp only [Distinct, l2s, List.map_cons, List.map_nil]; decide +kernel

set_option maxRecDepth 10000 in
theorem l4_distinct (p : Par K) : Distinct (l4 p) := by
  refine blocked_distinct _ 0 ⟨?_, ?_, ?_, ?_, ?_, ?_, ?_, ?_, ?_, ?_, ?_, ?_, ?_, ?_, ?_, ?_, ?_, ?_, trivial⟩
  · simp only [l4_0, List.map_cons, List.map_nil]; decide +kernel
  · refine distinct_of_chain _ ?_
    simp only [l4_0, List.map_cons, List.map_nil]; decide +kernel
  · simp only [l4_1, List.map_cons, List.map_nil]; decide +kernel
  · refine distinct_of_chain _ ?_
    simp only [l4_1, List.map_cons, List.map_nil]; decide +kernel
  · simp only [l4_2, List.map_cons, List.map_nil]; decide +kernel
  · refine distinct_of_chain _ ?_
    simp only [l4_2, List.map_cons, List.map_nil]; decide +kernel
  · simp only [l4_3, List.map_cons, List.map_nil]; decide +kernel
  · refine distinct_of_chain _ ?_
    simp only [l4_3, List.map_cons, List.map_nil]; decide +kernel
  · simp only [l4_4, List.map_cons, List.map_nil]; decide +kernel
  · refine distinct_of_chain _ ?_
    simp only [l4_4, List.map_cons, List.map_nil]; decide +kernel
  · simp only [l4_5, List.map_cons, List.map_nil]; decide +kernel
  · refine distinct_of_chain _ ?_
    simp only [l4_5, List.map_cons, List.map_nil]; decide +kernel
  · simp only [l4_6, List.map_cons, List.map_nil]; decide +kernel
  · refine distinct_of_chain _ ?_
    simp only [l4_6, List.map_cons, List.map_nil]; decide +kernel
  · simp only [l4_7, List.map_cons, List.map_nil]; decide +kernel
  · refine distinct_of_chain _ ?_
    simp only [l4_7, List.map_cons, List.map_nil]; decide +kernel
  · simp only [l4_8, List.map_cons, List.map_nil]; decide +kernel
  · refine distinct_of_chain _ ?_
    simp only [l4_8, List.map_cons, List.map_nil]; decide +kernel

/-- The first two indices. -/
def firstTwo (q : List Nat) : Nat := 4 * q.getD 0 0 + q.getD 1 0

theorem g2h2_distinct (g gs : K) : Distinct (g2h2 g gs) := by
  refine keyBlocks_distinct firstTwo _ 0 ⟨?_, ?_, ?_, ?_, ?_, ?_, ?_, ?_, ?_, ?_, ?_, ?_, ?_, ?_, ?_, ?_, ?_, ?_, ?_, ?_, ?_, ?_,
    ?_, ?_, ?_, ?_, ?_, ?_, ?_, ?_, ?_, ?_, trivial⟩
  · simp only [g2h2_00, List.map_cons, List.map_nil]; decide +kernel
  · refine distinct_of_chain _ ?_
    simp only [g2h2_00, List.map_cons, List.map_nil]; decide +kernel
  · simp only [g2h2_01, List.map_cons, List.map_nil]; decide +kernel
  · refine distinct_of_chain _ ?_
    simp only [g2h2_01, List.map_cons, List.map_nil]; decide +kernel
  · simp only [g2h2_02, List.map_cons, List.map_nil]; decide +kernel
  · refine distinct_of_chain _ ?_
    simp only [g2h2_02, List.map_cons, List.map_nil]; decide +kernel
  · simp only [g2h2_03, List.map_cons, List.map_nil]; decide +kernel
  · refine distinct_of_chain _ ?_
    simp only [g2h2_03, List.map_cons, List.map_nil]; decide +kernel
  · simp only [g2h2_10, List.map_cons, List.map_nil]; decide +kernel
  · refine distinct_of_chain _ ?_
    simp only [g2h2_10, List.map_cons, List.map_nil]; decide +kernel
  · simp only [g2h2_11, List.map_cons, List.map_nil]; decide +kernel
  · refine distinct_of_chain _ ?_
    simp only [g2h2_11, List.map_cons, List.map_nil]; decide +kernel
  · simp only [g2h2_12, List.map_cons, List.map_nil]; decide +kernel
  · refine distinct_of_chain _ ?_
    simp only [g2h2_12, List.map_cons, List.map_nil]; decide +kernel
  · simp only [g2h2_13, List.map_cons, List.map_nil]; decide +kernel
  · refine distinct_of_chain _ ?_
    simp only [g2h2_13, List.map_cons, List.map_nil]; decide +kernel
  · simp only [g2h2_20, List.map_cons, List.map_nil]; decide +kernel
  · refine distinct_of_chain _ ?_
    simp only [g2h2_20, List.map_cons, List.map_nil]; decide +kernel
  · simp only [g2h2_21, List.map_cons, List.map_nil]; decide +kernel
  · refine distinct_of_chain _ ?_
    simp only [g2h2_21, List.map_cons, List.map_nil]; decide +kernel
  · simp only [g2h2_22, List.map_cons, List.map_nil]; decide +kernel
  · refine distinct_of_chain _ ?_
    simp only [g2h2_22, List.map_cons, List.map_nil]; decide +kernel
  · simp only [g2h2_23, List.map_cons, List.map_nil]; decide +kernel
  · refine distinct_of_chain _ ?_
    simp only [g2h2_23, List.map_cons, List.map_nil]; decide +kernel
  · simp only [g2h2_30, List.map_cons, List.map_nil]; decide +kernel
  · refine distinct_of_chain _ ?_
    simp only [g2h2_30, List.map_cons, List.map_nil]; decide +kernel
  · simp only [g2h2_31, List.map_cons, List.map_nil]; decide +kernel
  · refine distinct_of_chain _ ?_
    simp only [g2h2_31, List.map_cons, List.map_nil]; decide +kernel
  · simp only [g2h2_32, List.map_cons, List.map_nil]; decide +kernel
  · refine distinct_of_chain _ ?_
    simp only [g2h2_32, List.map_cons, List.map_nil]; decide +kernel
  · simp only [g2h2_33, List.map_cons, List.map_nil]; decide +kernel
  · refine distinct_of_chain _ ?_
    simp only [g2h2_33, List.map_cons, List.map_nil]; decide +kernel

theorem l4s_distinct (p : Par K) : Distinct (l4s p) := (l4_drops p).distinct (l4_distinct p)

theorem g2h2s_distinct (g gs : K) : Distinct (g2h2s g gs) :=
  (g2h2_drops g gs).distinct (g2h2_distinct g gs)

theorem l4s_ascending (p : Par K) : Ascending (l4s p) :=
  ascending_of _ (by simp only [l4s, List.map_cons, List.map_nil]; decide +kernel)

theorem l2s_rank (p : Par K) : Rank 2 (l2s p) :=
  rank_of _ _ (by simp only [l2s, List.map_cons, List.map_nil]; decide +kernel)

theorem l4s_rank (p : Par K) : Rank 4 (l4s p) :=
  rank_of _ _ (by simp only [l4s, List.map_cons, List.map_nil]; decide +kernel)

theorem ctL1_distinct (c : CT K) : Distinct (ctL1 c) := by
  simp only [Distinct, ctL1, List.map_cons, List.map_nil]; decide +kernel

theorem ctL2_distinct (c : CT K) : Distinct (ctL2 c) := by
  simp only [Distinct, ctL2, List.map_cons, List.map_nil]; decide +kernel

theorem ctL4_distinct (c : CT K) : Distinct (ctL4 c) := by
  simp only [Distinct, ctL4, List.map_cons, List.map_nil]; decide +kernel

theorem ctL4_ascending (c : CT K) : Ascending (ctL4 c) :=
  ascending_of _ (by simp only [ctL4, List.map_cons, List.map_nil]; decide +kernel)

theorem ctL2_ascending (c : CT K) : Ascending (ctL2 c) :=
  ascending_of _ (by simp only [ctL2, List.map_cons, List.map_nil]; decide +kernel)

theorem ctL1_rank (c : CT K) : Rank 1 (ctL1 c) :=
  rank_of _ _ (by simp only [ctL1, List.map_cons, List.map_nil]; decide +kernel)

theorem ctL2_rank (c : CT K) : Rank 2 (ctL2 c) :=
  rank_of _ _ (by simp only [ctL2, List.map_cons, List.map_nil]; decide +kernel)

theorem ctL4_rank (c : CT K) : Rank 4 (ctL4 c) :=
  rank_of _ _ (by simp only [ctL4, List.map_cons, List.map_nil]; decide +kernel)

theorem tree_eq (p : Par K) :
    tree p = curv 9 (look []) (look (l2s p)) (look []) (lookSym (l4s p)) := by
  rw [tree, (l4_drops p).assign (l4_distinct p), (l2_drops p).assign (l2_distinct p),
    symmetrised4_curv _ _ _ (l4s p) (l4s_distinct p) _ (symLoop_symmetrises _ _),
    assign_look _ (l2s_distinct p), zero_look]

theorem counter_eq (c : CT K) :
    counter c = curv 9 (look (ctL1 c)) (lookSym (ctL2 c)) (look []) (lookSym (ctL4 c)) := by
  rw [counter, symmetrised4_curv _ _ _ (ctL4 c) (ctL4_distinct c) _ (symLoop_symmetrises _ _),
    symmetrised2_curv _ _ _ (ctL2 c) (ctL2_distinct c) _ (C32_sym2 _ _),
    assign_look _ (ctL1_distinct c), zero_look]

theorem vev_sum (v w s : K) (f : Fin 9 → K) (hf : ∀ k, vevTree v w s k = 0 → f k = 0) :
    ∑ k, f k = f 6 + f 7 + f 8 := by
  refine sum_support3 6 7 8 (by decide) (by decide) (by decide) (vevTree v w s)
    (fun k h1 h2 h3 => ?_) f hf
  fin_cases k <;> first
    | rfl | exact absurd rfl h1 | exact absurd rfl h2 | exact absurd rfl h3

theorem l2_table (p : Par K) (i j : Fin 9) : look (l2s p) [i, j] =
    !![p.u1, -p.RealMMix, 0, 0, 0, 0, 0, 0, 0; -p.RealMMix, p.u2, 0, 0, 0, 0, 0, 0, 0; 0, 0,
      p.u1, -p.RealMMix, 0, 0, 0, 0, 0; 0, 0, -p.RealMMix, p.u2, 0, 0, 0, 0, 0; 0, 0, 0, 0, p.u1,
      -p.RealMMix, 0, 0, 0; 0, 0, 0, 0, -p.RealMMix, p.u2, 0, 0, 0; 0, 0, 0, 0, 0, 0, p.u1,
      -p.RealMMix, 0; 0, 0, 0, 0, 0, 0, -p.RealMMix, p.u2, 0; 0, 0, 0, 0, 0, 0, 0, 0, p.Nus] i j := by
  fin_cases i <;> fin_cases j <;> rfl

theorem l4_table66 (p : Par K) (i j : Fin 9) : lookSym (l4s p) [i, j, 6, 6] =
    !![p.L1, 0, 0, 0, 0, 0, 0, 0, 0; 0, p.L3, 0, 0, 0, 0, 0, 0, 0; 0, 0, p.L1, 0, 0, 0, 0, 0, 0;
      0, 0, 0, p.L3, 0, 0, 0, 0, 0; 0, 0, 0, 0, p.L1, 0, 0, 0, 0; 0, 0, 0, 0, 0,
      p.L3 + p.L4 - p.RL5, 0, 0, 0; 0, 0, 0, 0, 0, 0, 3 * p.L1, 0, 0; 0, 0, 0, 0, 0, 0, 0,
      p.L3 + p.L4 + p.RL5, 0; 0, 0, 0, 0, 0, 0, 0, 0, p.NL7] i j := by
  fin_cases i <;> fin_cases j <;> rfl

theorem l4_table67 (p : Par K) (i j : Fin 9) : lookSym (l4s p) [i, j, 6, 7] =
    !![0, p.L4 / 2 + p.RL5 / 2, 0, 0, 0, 0, 0, 0, 0; p.L4 / 2 + p.RL5 / 2, 0, 0, 0, 0, 0, 0, 0,
      0; 0, 0, 0, p.L4 / 2 + p.RL5 / 2, 0, 0, 0, 0, 0; 0, 0, p.L4 / 2 + p.RL5 / 2, 0, 0, 0, 0, 0,
      0; 0, 0, 0, 0, 0, p.RL5, 0, 0, 0; 0, 0, 0, 0, p.RL5, 0, 0, 0, 0; 0, 0, 0, 0, 0, 0, 0,
      p.L3 + p.L4 + p.RL5, 0; 0, 0, 0, 0, 0, 0, p.L3 + p.L4 + p.RL5, 0, 0; 0, 0, 0, 0, 0, 0, 0,
      0, 0] i j := by
  fin_cases i <;> fin_cases j <;> rfl

theorem l4_table68 (p : Par K) (i j : Fin 9) : lookSym (l4s p) [i, j, 6, 8] =
    !![0, 0, 0, 0, 0, 0, 0, 0, 0; 0, 0, 0, 0, 0, 0, 0, 0, 0; 0, 0, 0, 0, 0, 0, 0, 0, 0; 0, 0, 0,
      0, 0, 0, 0, 0, 0; 0, 0, 0, 0, 0, 0, 0, 0, 0; 0, 0, 0, 0, 0, 0, 0, 0, 0; 0, 0, 0, 0, 0, 0,
      0, 0, p.NL7; 0, 0, 0, 0, 0, 0, 0, 0, 0; 0, 0, 0, 0, 0, 0, p.NL7, 0, 0] i j := by
  fin_cases i <;> fin_cases j <;> rfl

theorem l4_table77 (p : Par K) (i j : Fin 9) : lookSym (l4s p) [i, j, 7, 7] =
    !![p.L3, 0, 0, 0, 0, 0, 0, 0, 0; 0, p.L2, 0, 0, 0, 0, 0, 0, 0; 0, 0, p.L3, 0, 0, 0, 0, 0, 0;
      0, 0, 0, p.L2, 0, 0, 0, 0, 0; 0, 0, 0, 0, p.L3 + p.L4 - p.RL5, 0, 0, 0, 0; 0, 0, 0, 0, 0,
      p.L2, 0, 0, 0; 0, 0, 0, 0, 0, 0, p.L3 + p.L4 + p.RL5, 0, 0; 0, 0, 0, 0, 0, 0, 0, 3 * p.L2,
      0; 0, 0, 0, 0, 0, 0, 0, 0, p.NL8] i j := by
  fin_cases i <;> fin_cases j <;> rfl

theorem l4_table78 (p : Par K) (i j : Fin 9) : lookSym (l4s p) [i, j, 7, 8] =
    !![0, 0, 0, 0, 0, 0, 0, 0, 0; 0, 0, 0, 0, 0, 0, 0, 0, 0; 0, 0, 0, 0, 0, 0, 0, 0, 0; 0, 0, 0,
      0, 0, 0, 0, 0, 0; 0, 0, 0, 0, 0, 0, 0, 0, 0; 0, 0, 0, 0, 0, 0, 0, 0, 0; 0, 0, 0, 0, 0, 0,
      0, 0, 0; 0, 0, 0, 0, 0, 0, 0, 0, p.NL8; 0, 0, 0, 0, 0, 0, 0, p.NL8, 0] i j := by
  fin_cases i <;> fin_cases j <;> rfl

theorem l4_table88 (p : Par K) (i j : Fin 9) : lookSym (l4s p) [i, j, 8, 8] =
    !![p.NL7, 0, 0, 0, 0, 0, 0, 0, 0; 0, p.NL8, 0, 0, 0, 0, 0, 0, 0; 0, 0, p.NL7, 0, 0, 0, 0, 0,
      0; 0, 0, 0, p.NL8, 0, 0, 0, 0, 0; 0, 0, 0, 0, p.NL7, 0, 0, 0, 0; 0, 0, 0, 0, 0, p.NL8, 0,
      0, 0; 0, 0, 0, 0, 0, 0, p.NL7, 0, 0; 0, 0, 0, 0, 0, 0, 0, p.NL8, 0; 0, 0, 0, 0, 0, 0, 0, 0,
      3 * p.NL6] i j := by
  fin_cases i <;> fin_cases j <;> rfl

theorem ctL2_table (c : CT K) (i j : Fin 9) : lookSym (ctL2 c) [i, j] =
    !![c.Du1CT, -c.DRu3CT, 0, 0, 0, 0, 0, 0, 0; -c.DRu3CT, c.Du2CT, 0, 0, 0, 0, 0, 0, 0; 0, 0,
      c.Du1CT, -c.DRu3CT, 0, 0, 0, 0, 0; 0, 0, -c.DRu3CT, c.Du2CT, 0, 0, 0, 0, 0; 0, 0, 0, 0,
      c.Du1CT, -c.DRu3CT, 0, 0, 0; 0, 0, 0, 0, -c.DRu3CT, c.Du2CT, 0, 0, 0; 0, 0, 0, 0, 0, 0,
      c.Du1CT, -c.DRu3CT, 0; 0, 0, 0, 0, 0, 0, -c.DRu3CT, c.Du2CT, 0; 0, 0, 0, 0, 0, 0, 0, 0,
      c.NDus] i j := by
  fin_cases i <;> fin_cases j <;> rfl

theorem ctL4_table66 (c : CT K) (i j : Fin 9) : lookSym (ctL4 c) [i, j, 6, 6] =
    !![c.DL1CT, 0, 0, 0, 0, 0, 0, 0, 0; 0, c.DL3CT, 0, 0, 0, 0, 0, 0, 0; 0, 0, c.DL1CT, 0, 0, 0,
      0, 0, 0; 0, 0, 0, c.DL3CT, 0, 0, 0, 0, 0; 0, 0, 0, 0, c.DL1CT, 0, 0, 0, 0; 0, 0, 0, 0, 0,
      c.DL3CT + c.DL4CT - c.DRL5CT, 0, 0, 0; 0, 0, 0, 0, 0, 0, 3 * c.DL1CT, 0, 0; 0, 0, 0, 0, 0,
      0, 0, c.DL3CT + c.DL4CT + c.DRL5CT, 0; 0, 0, 0, 0, 0, 0, 0, 0, c.NDL7] i j := by
  fin_cases i <;> fin_cases j <;> rfl

theorem ctL4_table67 (c : CT K) (i j : Fin 9) : lookSym (ctL4 c) [i, j, 6, 7] =
    !![0, c.DL4CT / 2 + c.DRL5CT / 2, 0, 0, 0, 0, 0, 0, 0; c.DL4CT / 2 + c.DRL5CT / 2, 0, 0, 0,
      0, 0, 0, 0, 0; 0, 0, 0, c.DL4CT / 2 + c.DRL5CT / 2, 0, 0, 0, 0, 0; 0, 0,
      c.DL4CT / 2 + c.DRL5CT / 2, 0, 0, 0, 0, 0, 0; 0, 0, 0, 0, 0, c.DRL5CT, 0, 0, 0; 0, 0, 0, 0,
      c.DRL5CT, 0, 0, 0, 0; 0, 0, 0, 0, 0, 0, 0, c.DL3CT + c.DL4CT + c.DRL5CT, 0; 0, 0, 0, 0, 0,
      0, c.DL3CT + c.DL4CT + c.DRL5CT, 0, 0; 0, 0, 0, 0, 0, 0, 0, 0, 0] i j := by
  fin_cases i <;> fin_cases j <;> rfl

theorem ctL4_table68 (c : CT K) (i j : Fin 9) : lookSym (ctL4 c) [i, j, 6, 8] =
    !![0, 0, 0, 0, 0, 0, 0, 0, 0; 0, 0, 0, 0, 0, 0, 0, 0, 0; 0, 0, 0, 0, 0, 0, 0, 0, 0; 0, 0, 0,
      0, 0, 0, 0, 0, 0; 0, 0, 0, 0, 0, 0, 0, 0, 0; 0, 0, 0, 0, 0, 0, 0, 0, 0; 0, 0, 0, 0, 0, 0,
      0, 0, c.NDL7; 0, 0, 0, 0, 0, 0, 0, 0, 0; 0, 0, 0, 0, 0, 0, c.NDL7, 0, 0] i j := by
  fin_cases i <;> fin_cases j <;> rfl

theorem ctL4_table77 (c : CT K) (i j : Fin 9) : lookSym (ctL4 c) [i, j, 7, 7] =
    !![c.DL3CT, 0, 0, 0, 0, 0, 0, 0, 0; 0, c.DL2CT, 0, 0, 0, 0, 0, 0, 0; 0, 0, c.DL3CT, 0, 0, 0,
      0, 0, 0; 0, 0, 0, c.DL2CT, 0, 0, 0, 0, 0; 0, 0, 0, 0, c.DL3CT + c.DL4CT - c.DRL5CT, 0, 0,
      0, 0; 0, 0, 0, 0, 0, c.DL2CT, 0, 0, 0; 0, 0, 0, 0, 0, 0, c.DL3CT + c.DL4CT + c.DRL5CT, 0,
      0; 0, 0, 0, 0, 0, 0, 0, 3 * c.DL2CT, 0; 0, 0, 0, 0, 0, 0, 0, 0, c.NDL8] i j := by
  fin_cases i <;> fin_cases j <;> rfl

theorem ctL4_table78 (c : CT K) (i j : Fin 9) : lookSym (ctL4 c) [i, j, 7, 8] =
    !![0, 0, 0, 0, 0, 0, 0, 0, 0; 0, 0, 0, 0, 0, 0, 0, 0, 0; 0, 0, 0, 0, 0, 0, 0, 0, 0; 0, 0, 0,
      0, 0, 0, 0, 0, 0; 0, 0, 0, 0, 0, 0, 0, 0, 0; 0, 0, 0, 0, 0, 0, 0, 0, 0; 0, 0, 0, 0, 0, 0,
      0, 0, 0; 0, 0, 0, 0, 0, 0, 0, 0, c.NDL8; 0, 0, 0, 0, 0, 0, 0, c.NDL8, 0] i j := by
  fin_cases i <;> fin_cases j <;> rfl

theorem ctL4_table88 (c : CT K) (i j : Fin 9) : lookSym (ctL4 c) [i, j, 8, 8] =
    !![c.NDL7, 0, 0, 0, 0, 0, 0, 0, 0; 0, c.NDL8, 0, 0, 0, 0, 0, 0, 0; 0, 0, c.NDL7, 0, 0, 0, 0,
      0, 0; 0, 0, 0, c.NDL8, 0, 0, 0, 0, 0; 0, 0, 0, 0, c.NDL7, 0, 0, 0, 0; 0, 0, 0, 0, 0,
      c.NDL8, 0, 0, 0; 0, 0, 0, 0, 0, 0, c.NDL7, 0, 0; 0, 0, 0, 0, 0, 0, 0, c.NDL8, 0; 0, 0, 0,
      0, 0, 0, 0, 0, 3 * c.NDL6] i j := by
  fin_cases i <;> fin_cases j <;> rfl

end Lists

end Verif.Lagrangian.N2HDM
