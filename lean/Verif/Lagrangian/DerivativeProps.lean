import Verif.Lagrangian.Derivatives
import Verif.Lagrangian.SM.Symmetry
import Verif.Lagrangian.SM.Props
import Verif.Lagrangian.CxSM.Symmetry
import Verif.Lagrangian.CxSM.Props
import Verif.Lagrangian.R2HDM.Symmetry
import Verif.Lagrangian.R2HDM.Props
import Verif.Lagrangian.C2HDM.Symmetry
import Verif.Lagrangian.C2HDM.Props
import Verif.Lagrangian.N2HDM.Symmetry
import Verif.Lagrangian.N2HDM.Props
import Verif.Lagrangian.CPintheDark.Symmetry
import Verif.Lagrangian.CPintheDark.Props
import Verif.Lagrangian.Template.Props

/-!
# Derivatives of the potentials of the models

The tensors that the models build do not depend on the order of their indices.  So the derivative
modes of `VTree` and `CounterTerm`, and `NablaVCT`, `HiggsMassMatrix` and `HessianCT`, return the
derivatives of the documented potentials.
-/

set_option linter.unusedVariables false

namespace Verif.Lagrangian

open Verif.Potential Verif.Potential.Spec Verif.Lagrangian.Spec

namespace SM

/-- The tensors of the tree-level potential of the standard model do not depend on the order of
the indices. -/
theorem C80_sm_tree_symmetric (p : Par ℝ) : Symmetric (tree p) :=
  symmetric_curv _ _ _ _ (l2_sym2 p) (sym3_zero 4) (sym4_of_symmetrises (C32_sym4 _ _))

/-- The tensors of the counterterm potential do not depend on the order of the indices. -/
theorem C80_sm_counter_symmetric (c : CT ℝ) : Symmetric (counter c) :=
  symmetric_curv _ _ _ _ (ctL2_sym2 c) (sym3_zero 4)
    (sym4_of_symmetrises (C32_sym4 _ _))

/-- The derivative modes of `VTree` and `HiggsMassMatrix` are the derivatives of the documented
potential. -/
theorem C80_sm_tree (p : Par ℝ) : TreeDerivatives (fun φ =>
    (p.muSq * dagger (higgs φ) (higgs φ) + p.lam * dagger (higgs φ) (higgs φ) ^ 2 : ℂ).re)
    (tree p) :=
  tree_derivatives _ _ (C80_sm_tree_symmetric p) fun s φ => by
    rw [← C74_sm_potential p φ s true, Complex.ofReal_re]

/-- The derivative modes of `CounterTerm`, `NablaVCT` and `HessianCT` are the derivatives of the
documented counterterm potential. -/
theorem C80_sm_counter (c : CT ℝ) : CounterDerivatives (fun φ =>
    (c.dmuSq * dagger (higgs φ) (higgs φ) + c.dlambda * dagger (higgs φ) (higgs φ) ^ 2 +
      ((c.dT1 * φ 0 + c.dT2 * φ 1 + c.dT3 * φ 2 + c.dT4 * φ 3 : ℝ) : ℂ) : ℂ).re)
    (counter c) :=
  counter_derivatives _ _ (C80_sm_counter_symmetric c) fun s φ => by
    rw [← C74_sm_counterterms c φ s true, Complex.ofReal_re]

end SM

namespace CxSM

/-- The tensors of the tree-level potential of the standard model with a complex singlet do not
  depend on the order of
the indices. -/
theorem C80_cxsm_tree_symmetric (p : Par) : Symmetric (tree p) :=
  symmetric_curv _ _ _ _ (l2_sym2 p) (sym3_zero 6) (l4_sym4 p)

/-- The tensors of the counterterm potential do not depend on the order of the indices. -/
theorem C80_cxsm_counter_symmetric (c : CT) : Symmetric (counter c) :=
  symmetric_curv _ _ _ _ (by rw [ctL2_eq]; exact l2_sym2 (shift c)) (sym3_zero 6)
    (by rw [ctL4_eq]; exact l4_sym4 (shift c))

/-- The derivative modes of `VTree` and `HiggsMassMatrix` are the derivatives of the documented
potential. -/
theorem C80_cxsm_tree (p : Par) : TreeDerivatives (fun φ =>
    (potential p.msq p.lam p.delta2 p.b2 p.d2 ⟨p.Reb1, p.Imb1⟩ ⟨p.Rea1, p.Ima1⟩ (higgs φ)
      (singlet φ) : ℂ).re)
    (tree p) :=
  tree_derivatives _ _ (C80_cxsm_tree_symmetric p) fun s φ => by
    rw [← C74_cxsm_potential p φ s true, Complex.ofReal_re]

/-- The derivative modes of `CounterTerm`, `NablaVCT` and `HessianCT` are the derivatives of the
documented counterterm potential. -/
theorem C80_cxsm_counter (c : CT) : CounterDerivatives (fun φ =>
    (potential c.dmsq c.dlambda c.ddelta2 c.db2 c.dd2 ⟨c.dReb1, c.dImb1⟩ ⟨c.dRea1, c.dIma1⟩
      (higgs φ) (singlet φ) + ((c.dT1 * φ 0 + c.dT2 * φ 1 + c.dT3 * φ 2 + c.dT4 * φ 3 +
      c.dT5 * φ 4 + c.dT6 * φ 5 : ℝ) : ℂ) : ℂ).re)
    (counter c) :=
  counter_derivatives _ _ (C80_cxsm_counter_symmetric c) fun s φ => by
    rw [← C74_cxsm_counterterms c φ s true, Complex.ofReal_re]

end CxSM

namespace R2HDM

open TwoDoublets

/-- The tensors of the tree-level potential of the real two Higgs doublet model do not depend on
  the order of
the indices. -/
theorem C80_r2hdm_tree_symmetric (p : Par ℝ) : Symmetric (tree p) :=
  symmetric_curv _ _ _ _ (l2_sym2 p) (sym3_zero 8) (sym4_of_symmetrises (symLoop_symmetrises _ _))

/-- The tensors of the counterterm potential do not depend on the order of the indices. -/
theorem C80_r2hdm_counter_symmetric (c : CT ℝ) : Symmetric (counter c) :=
  symmetric_curv _ _ _ _ (ctL2_sym2 c) (sym3_zero 8)
    (sym4_of_symmetrises (symLoop_symmetrises _ _))

/-- The derivative modes of `VTree` and `HiggsMassMatrix` are the derivatives of the documented
potential. -/
theorem C80_r2hdm_tree (p : Par ℝ) : TreeDerivatives (fun φ =>
    (twoDoublet p.u1 p.u2 p.RealMMix p.L1 p.L2 p.L3 p.L4 p.RL5 0 (phi1 φ) (phi2 φ) : ℂ).re)
    (tree p) :=
  tree_derivatives _ _ (C80_r2hdm_tree_symmetric p) fun s φ => by
    rw [← C74_r2hdm_potential p φ s true, Complex.ofReal_re]

/-- The derivative modes of `CounterTerm`, `NablaVCT` and `HessianCT` are the derivatives of the
documented counterterm potential. -/
theorem C80_r2hdm_counter (c : CT ℝ) : CounterDerivatives (fun φ =>
    (twoDoublet c.Du1CT c.Du2CT c.DRu3CT c.DL1CT c.DL2CT c.DL3CT c.DL4CT c.DRL5CT 0 (phi1 φ)
      (phi2 φ) + ((c.DT1 * φ 4 + c.DT2 * φ 6 + c.DT3 * φ 7 : ℝ) : ℂ) : ℂ).re)
    (counter c) :=
  counter_derivatives _ _ (C80_r2hdm_counter_symmetric c) fun s φ => by
    rw [← C74_r2hdm_counterterms c φ s true, Complex.ofReal_re]

end R2HDM

namespace C2HDM

open TwoDoublets

/-- The tensors of the tree-level potential of the complex two Higgs doublet model do not depend
  on the order of
the indices. -/
theorem C80_c2hdm_tree_symmetric (p : Par ℝ) : Symmetric (tree p) :=
  symmetric_curv _ _ _ _ (l2_sym2 p) (sym3_zero 8) (sym4_of_symmetrises (symLoop_symmetrises _ _))

/-- The tensors of the counterterm potential do not depend on the order of the indices. -/
theorem C80_c2hdm_counter_symmetric (c : CT ℝ) : Symmetric (counter c) :=
  symmetric_curv _ _ _ _ (ctL2_sym2 c) (sym3_zero 8)
    (ctL4_sym4 c)

/-- The derivative modes of `VTree` and `HiggsMassMatrix` are the derivatives of the documented
potential. -/
theorem C80_c2hdm_tree (p : Par ℝ) : TreeDerivatives (fun φ =>
    (twoDoublet p.u1 p.u2 ⟨p.RealMMix, p.Iu3⟩ p.L1 p.L2 p.L3 p.L4 ⟨p.RL5, p.IL5⟩ 0 (phi1 φ)
      (phi2 φ) : ℂ).re)
    (tree p) :=
  tree_derivatives _ _ (C80_c2hdm_tree_symmetric p) fun s φ => by
    rw [← C74_c2hdm_potential p φ s true, Complex.ofReal_re]

/-- The derivative modes of `CounterTerm`, `NablaVCT` and `HessianCT` are the derivatives of the
documented counterterm potential. -/
theorem C80_c2hdm_counter (c : CT ℝ) : CounterDerivatives (fun φ =>
    (twoDoublet c.Du1CT c.Du2CT ⟨c.DRu3CT, c.DIu3CT⟩ c.DL1CT c.DL2CT c.DL3CT c.DL4CT
      ⟨c.DRL5CT, c.DIL5CT⟩ ⟨0, c.DIL6CT⟩ (phi1 φ) (phi2 φ) + ((c.DTCharged * φ 2 + c.DT1 * φ
      4 + c.DT2 * φ 6 + c.DT3 * φ 7 : ℝ) : ℂ) : ℂ).re)
    (counter c) :=
  counter_derivatives _ _ (C80_c2hdm_counter_symmetric c) fun s φ => by
    rw [← C74_c2hdm_counterterms c φ s true, Complex.ofReal_re]

end C2HDM

namespace N2HDM

/-- The tensors of the tree-level potential of the next-to two Higgs doublet model do not depend
  on the order of
the indices. -/
theorem C80_n2hdm_tree_symmetric (p : Par ℝ) : Symmetric (tree p) :=
  symmetric_curv _ _ _ _ (by rw [(l2_drops p).assign (l2_distinct p)]; exact l2s_sym2 p)
    (sym3_zero 9) (sym4_of_symmetrises (symLoop_symmetrises _ _))

/-- The tensors of the counterterm potential do not depend on the order of the indices. -/
theorem C80_n2hdm_counter_symmetric (c : CT ℝ) : Symmetric (counter c) :=
  symmetric_curv _ _ _ _ (sym2_of_symmetrises (C32_sym2 _ _)) (sym3_zero 9)
    (sym4_of_symmetrises (symLoop_symmetrises _ _))

/-- The derivative modes of `VTree` and `HiggsMassMatrix` are the derivatives of the documented
potential. -/
theorem C80_n2hdm_tree (p : Par ℝ) : TreeDerivatives (fun φ =>
    (documented p.u1 p.u2 p.RealMMix p.L1 p.L2 p.L3 p.L4 p.RL5 p.Nus p.NL6 p.NL7 p.NL8 φ : ℂ).re)
    (tree p) :=
  tree_derivatives _ _ (C80_n2hdm_tree_symmetric p) fun s φ => by
    rw [← C74_n2hdm_potential p φ s true, Complex.ofReal_re]

/-- The derivative modes of `CounterTerm`, `NablaVCT` and `HessianCT` are the derivatives of the
documented counterterm potential. -/
theorem C80_n2hdm_counter (c : CT ℝ) : CounterDerivatives (fun φ =>
    (documented c.Du1CT c.Du2CT c.DRu3CT c.DL1CT c.DL2CT c.DL3CT c.DL4CT c.DRL5CT c.NDus
      c.NDL6 c.NDL7 c.NDL8 φ + ((c.DT1 * φ 6 + c.DT2 * φ 7 + c.NDTS * φ 8 : ℝ) : ℂ) : ℂ).re)
    (counter c) :=
  counter_derivatives _ _ (C80_n2hdm_counter_symmetric c) fun s φ => by
    rw [← C74_n2hdm_counterterms c φ s true, Complex.ofReal_re]

end N2HDM

namespace CPintheDark

/-- The tensors of the tree-level potential of CP in the Dark do not depend on the order of
the indices. -/
theorem C80_cpinthedark_tree_symmetric (p : Par ℝ) : Symmetric (tree p) :=
  symmetric_curv _ _ _ _ (l2_sym2 p) (l3_sym3 p) (l4_sym4 p)

/-- The tensors of the counterterm potential do not depend on the order of the indices. -/
theorem C80_cpinthedark_counter_symmetric (c : CT ℝ) : Symmetric (counter c) :=
  symmetric_curv _ _ _ _ (ctL2_sym2 c) (ctL3_sym3 c)
    (ctL4_sym4 c)

/-- The derivative modes of `VTree` and `HiggsMassMatrix` are the derivatives of the documented
potential. -/
theorem C80_cpinthedark_tree (p : Par ℝ) : TreeDerivatives (fun φ =>
    (documented p.m11s p.m22s p.mSs ⟨p.ReA, p.ImA⟩ p.L1 p.L2 p.L3 p.L4 ⟨p.L5, 0⟩ (2 * p.L6)
      p.L7 p.L8 φ : ℂ).re)
    (tree p) :=
  tree_derivatives _ _ (C80_cpinthedark_tree_symmetric p) fun s φ => by
    rw [← C74_cpinthedark_potential p φ s true, Complex.ofReal_re]

/-- The derivative modes of `CounterTerm`, `NablaVCT` and `HessianCT` are the derivatives of the
documented counterterm potential. -/
theorem C80_cpinthedark_counter (c : CT ℝ) : CounterDerivatives (fun φ =>
    (documented c.dm11s c.dm22s c.dmSs ⟨c.dReA, c.dImA⟩ c.dL1 c.dL2 c.dL3 c.dL4 ⟨c.dL5,
      c.dImL5⟩ (2 * c.dL6) c.dL7 c.dL8 φ + ((c.dTCB * φ 2 + c.dT1 * φ 4 + c.dT2 * φ 6 +
      c.dTCP * φ 7 + c.dTS * φ 8 : ℝ) : ℂ) : ℂ).re)
    (counter c) :=
  counter_derivatives _ _ (C80_cpinthedark_counter_symmetric c) fun s φ => by
    rw [← C74_cpinthedark_counterterms c φ s true, Complex.ofReal_re]

end CPintheDark

namespace Template

theorem C80_template_tree_symmetric (p : Par ℝ) : Symmetric (tree p) := by
  constructor <;> intros <;> simp only [Subsingleton.elim _ (0 : Fin 1)]

theorem C80_template_counter_symmetric (c : CT ℝ) : Symmetric (counter c) := by
  constructor <;> intros <;> simp only [Subsingleton.elim _ (0 : Fin 1)]

/-- The derivative modes of `VTree` and `HiggsMassMatrix` are the derivatives of the documented
potential. -/
theorem C80_template_tree (p : Par ℝ) :
    TreeDerivatives (fun φ => p.ms / 2 * φ 0 ^ 2 + p.lam / 24 * φ 0 ^ 4) (tree p) :=
  tree_derivatives _ _ (C80_template_tree_symmetric p) fun s φ => by
    rw [← C74_template_potential p φ false true]
    simp [vTree]

/-- The derivative modes of `CounterTerm`, `NablaVCT` and `HessianCT` are the derivatives of the
documented counterterm potential. -/
theorem C80_template_counter (c : CT ℝ) : CounterDerivatives
    (fun φ => c.dT * φ 0 + c.dms / 2 * φ 0 ^ 2 + c.dlam / 24 * φ 0 ^ 4) (counter c) :=
  counter_derivatives _ _ (C80_template_counter_symmetric c) fun s φ => by
    rw [← C74_template_counterterms c φ false true]
    simp [counterTerm]

end Template

/-- The theorems apply to parameters with every coupling present. -/
example : Symmetric (C2HDM.counter (K := ℝ) ⟨1, 2, 3, 4, 5, 6, 7, 8, 9, 10, 11, 12, 13, 14, 15⟩) :=
  C2HDM.C80_c2hdm_counter_symmetric _

/-- Without the symmetry the derivative mode is not the derivative: with `L2_12 = 1` and
`L2_21 = 0` the polynomial is `φ_1 φ_2 / 2` and mode `1` returns `φ_2`. -/
theorem C80_symmetry_needed : ∃ c : Curv 2 ℝ, ∀ W, ¬ TreeDerivatives W c := by
  refine ⟨⟨fun _ => 0, fun i j => if i = 0 ∧ j = 1 then 1 else 0, fun _ _ _ => 0,
    fun _ _ _ _ => 0⟩, fun W h => ?_⟩
  obtain ⟨hW, M, -, G, hG, D, -, hN, -⟩ :=
    h false (fun _ => 0) true (fun _ _ => 0) (fun _ _ => rfl) ![0, 1]
  have e : W = fun φ => 1 / 2 * (φ 0 * φ 1) := by
    funext φ
    rw [← (h false (fun _ => 0) true (fun _ _ => 0) (fun _ _ => rfl) φ).1,
      C30_value false _ _ φ (by simp) true]
    simp [polynomial, Fin.sum_univ_two]
    try ring
  have h1 := hG.self_of_nhds
  have h2 : HasFDerivAt W ((1 / 2 : ℝ) • ((![0, 1] : Fin 2 → ℝ) 0 •
      (ContinuousLinearMap.proj (R := ℝ) (φ := fun _ : Fin 2 => ℝ) 1) + (![0, 1] : Fin 2 → ℝ) 1 •
      (ContinuousLinearMap.proj (R := ℝ) (φ := fun _ : Fin 2 => ℝ) 0))) ![0, 1] := by
    rw [e]
    exact ((hasFDerivAt_apply (𝕜 := ℝ) (F' := fun _ : Fin 2 => ℝ) 0 _).mul
      (hasFDerivAt_apply (𝕜 := ℝ) (F' := fun _ : Fin 2 => ℝ) 1 _)).const_mul _
  have h3 := hN 0
  rw [h1.unique h2] at h3
  simp [vTree, fieldIndex, grad] at h3

end Verif.Lagrangian
