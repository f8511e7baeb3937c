import Verif.Yukawa.Form
import Verif.Yukawa.Constants
import Verif.Lagrangian.SM.Props

/-!
# The fermions of the standard model

The Yukawa couplings of ClassPotentialSM.cpp.  `v` is `SMConstants.C_vev0`.
-/

set_option linter.unusedSimpArgs false

namespace Verif.Yukawa.SM

open Verif.Potential Verif.Lagrangian Complex
open Verif.Yukawa.Spec
open scoped ComplexConjugate

/-- `Curvature_Quark_F2H1`, ClassPotentialSM.cpp:493-610. -/
noncomputable def quarks (c : Constants) (v : ℝ) : Assign ℂ :=
  [([0, 6, 2], 1 / v * (c.mUp : ℂ)), ([0, 6, 3], -I / v * (c.mUp : ℂ)),
   ([0, 9, 0], -1 / v * (c.mUp : ℂ) * conj (c.V11)),
   ([0, 9, 1], I / v * (c.mUp : ℂ) * conj (c.V11)),
   ([0, 10, 0], -1 / v * (c.mUp : ℂ) * conj (c.V12)),
   ([0, 10, 1], I / v * (c.mUp : ℂ) * conj (c.V12)),
   ([0, 11, 0], -1 / v * (c.mUp : ℂ) * conj (c.V13)),
   ([0, 11, 1], I / v * (c.mUp : ℂ) * conj (c.V13)), ([1, 7, 2], 1 / v * (c.mCharm : ℂ)),
   ([1, 7, 3], -I / v * (c.mCharm : ℂ)), ([1, 9, 0], -1 / v * (c.mCharm : ℂ) * conj (c.V21)),
   ([1, 9, 1], I / v * (c.mCharm : ℂ) * conj (c.V21)),
   ([1, 10, 0], -1 / v * (c.mCharm : ℂ) * conj (c.V22)),
   ([1, 10, 1], I / v * (c.mCharm : ℂ) * conj (c.V22)),
   ([1, 11, 0], -1 / v * (c.mCharm : ℂ) * conj (c.V23)),
   ([1, 11, 1], I / v * (c.mCharm : ℂ) * conj (c.V23)), ([2, 8, 2], 1 / v * (c.mTop : ℂ)),
   ([2, 8, 3], -I / v * (c.mTop : ℂ)), ([2, 9, 0], -1 / v * (c.mTop : ℂ) * conj (c.V31)),
   ([2, 9, 1], I / v * (c.mTop : ℂ) * conj (c.V31)),
   ([2, 10, 0], -1 / v * (c.mTop : ℂ) * conj (c.V32)),
   ([2, 10, 1], I / v * (c.mTop : ℂ) * conj (c.V32)),
   ([2, 11, 0], -1 / v * (c.mTop : ℂ) * conj (c.V33)),
   ([2, 11, 1], I / v * (c.mTop : ℂ) * conj (c.V33)), ([3, 6, 0], 1 / v * (c.mDown : ℂ) * c.V11),
   ([3, 6, 1], I / v * (c.mDown : ℂ) * c.V11), ([3, 7, 0], c.V21 / v * (c.mDown : ℂ)),
   ([3, 7, 1], I * c.V21 / v * (c.mDown : ℂ)), ([3, 8, 0], 1 / v * (c.mDown : ℂ) * c.V31),
   ([3, 8, 1], I / v * (c.mDown : ℂ) * c.V31), ([3, 9, 2], 1 / v * (c.mDown : ℂ)),
   ([3, 9, 3], I / v * (c.mDown : ℂ)), ([4, 6, 0], 1 / v * (c.mStrange : ℂ) * c.V12),
   ([4, 6, 1], I / v * (c.mStrange : ℂ) * c.V12), ([4, 7, 0], c.V22 / v * (c.mStrange : ℂ)),
   ([4, 7, 1], I * c.V22 / v * (c.mStrange : ℂ)), ([4, 8, 0], 1 / v * (c.mStrange : ℂ) * c.V32),
   ([4, 8, 1], I / v * (c.mStrange : ℂ) * c.V32), ([4, 10, 2], 1 / v * (c.mStrange : ℂ)),
   ([4, 10, 3], I / v * (c.mStrange : ℂ)), ([5, 6, 0], c.V13 / v * (c.mBottom : ℂ)),
   ([5, 6, 1], I / v * (c.mBottom : ℂ) * c.V13), ([5, 7, 0], c.V23 / v * (c.mBottom : ℂ)),
   ([5, 7, 1], I / v * (c.mBottom : ℂ) * c.V23), ([5, 8, 0], c.V33 / v * (c.mBottom : ℂ)),
   ([5, 8, 1], I / v * (c.mBottom : ℂ) * c.V33), ([5, 11, 2], 1 / v * (c.mBottom : ℂ)),
   ([5, 11, 3], I / v * (c.mBottom : ℂ)), ([6, 0, 2], 1 / v * (c.mUp : ℂ)),
   ([6, 0, 3], -I / v * (c.mUp : ℂ)), ([6, 3, 0], 1 / v * (c.mDown : ℂ) * c.V11),
   ([6, 3, 1], I / v * (c.mDown : ℂ) * c.V11), ([6, 4, 0], 1 / v * (c.mStrange : ℂ) * c.V12),
   ([6, 4, 1], I / v * (c.mStrange : ℂ) * c.V12), ([6, 5, 0], c.V13 / v * (c.mBottom : ℂ)),
   ([6, 5, 1], I / v * (c.mBottom : ℂ) * c.V13), ([7, 1, 2], 1 / v * (c.mCharm : ℂ)),
   ([7, 1, 3], -I / v * (c.mCharm : ℂ)), ([7, 3, 0], c.V21 / v * (c.mDown : ℂ)),
   ([7, 3, 1], I * c.V21 / v * (c.mDown : ℂ)), ([7, 4, 0], c.V22 / v * (c.mStrange : ℂ)),
   ([7, 4, 1], I * c.V22 / v * (c.mStrange : ℂ)), ([7, 5, 0], c.V23 / v * (c.mBottom : ℂ)),
   ([7, 5, 1], I / v * (c.mBottom : ℂ) * c.V23), ([8, 2, 2], 1 / v * (c.mTop : ℂ)),
   ([8, 2, 3], -I / v * (c.mTop : ℂ)), ([8, 3, 0], 1 / v * (c.mDown : ℂ) * c.V31),
   ([8, 3, 1], I / v * (c.mDown : ℂ) * c.V31), ([8, 4, 0], 1 / v * (c.mStrange : ℂ) * c.V32),
   ([8, 4, 1], I / v * (c.mStrange : ℂ) * c.V32), ([8, 5, 0], c.V33 / v * (c.mBottom : ℂ)),
   ([8, 5, 1], I / v * (c.mBottom : ℂ) * c.V33), ([9, 0, 0], -1 / v * (c.mUp : ℂ) * conj (c.V11)),
   ([9, 0, 1], I / v * (c.mUp : ℂ) * conj (c.V11)),
   ([9, 1, 0], -1 / v * (c.mCharm : ℂ) * conj (c.V21)),
   ([9, 1, 1], I / v * (c.mCharm : ℂ) * conj (c.V21)),
   ([9, 2, 0], -1 / v * (c.mTop : ℂ) * conj (c.V31)),
   ([9, 2, 1], I / v * (c.mTop : ℂ) * conj (c.V31)), ([9, 3, 2], 1 / v * (c.mDown : ℂ)),
   ([9, 3, 3], I / v * (c.mDown : ℂ)), ([10, 0, 0], -1 / v * (c.mUp : ℂ) * conj (c.V12)),
   ([10, 0, 1], I / v * (c.mUp : ℂ) * conj (c.V12)),
   ([10, 1, 0], -1 / v * (c.mCharm : ℂ) * conj (c.V22)),
   ([10, 1, 1], I / v * (c.mCharm : ℂ) * conj (c.V22)),
   ([10, 2, 0], -1 / v * (c.mTop : ℂ) * conj (c.V32)),
   ([10, 2, 1], I / v * (c.mTop : ℂ) * conj (c.V32)), ([10, 4, 2], 1 / v * (c.mStrange : ℂ)),
   ([10, 4, 3], I / v * (c.mStrange : ℂ)), ([11, 0, 0], -1 / v * (c.mUp : ℂ) * conj (c.V13)),
   ([11, 0, 1], I / v * (c.mUp : ℂ) * conj (c.V13)),
   ([11, 1, 0], -1 / v * (c.mCharm : ℂ) * conj (c.V23)),
   ([11, 1, 1], I / v * (c.mCharm : ℂ) * conj (c.V23)),
   ([11, 2, 0], -1 / v * (c.mTop : ℂ) * conj (c.V33)),
   ([11, 2, 1], I / v * (c.mTop : ℂ) * conj (c.V33)), ([11, 5, 2], 1 / v * (c.mBottom : ℂ)),
   ([11, 5, 3], I / v * (c.mBottom : ℂ))]

/-- `Curvature_Lepton_F2H1`, ClassPotentialSM.cpp:468-491. -/
noncomputable def leptons (c : Constants) (v : ℝ) : Assign ℂ :=
  [([0, 1, 2], 1 / v * (c.mElectron : ℂ)), ([0, 1, 3], I / v * (c.mElectron : ℂ)),
   ([1, 0, 2], 1 / v * (c.mElectron : ℂ)), ([1, 0, 3], I / v * (c.mElectron : ℂ)),
   ([1, 6, 0], 1 / v * (c.mElectron : ℂ)), ([1, 6, 1], I / v * (c.mElectron : ℂ)),
   ([2, 3, 2], 1 / v * (c.mMu : ℂ)), ([2, 3, 3], I / v * (c.mMu : ℂ)),
   ([3, 2, 2], 1 / v * (c.mMu : ℂ)), ([3, 2, 3], I / v * (c.mMu : ℂ)),
   ([3, 7, 0], 1 / v * (c.mMu : ℂ)), ([3, 7, 1], I / v * (c.mMu : ℂ)),
   ([4, 5, 2], 1 / v * (c.mTau : ℂ)), ([4, 5, 3], I / v * (c.mTau : ℂ)),
   ([5, 4, 2], 1 / v * (c.mTau : ℂ)), ([5, 4, 3], I / v * (c.mTau : ℂ)),
   ([5, 8, 0], 1 / v * (c.mTau : ℂ)), ([5, 8, 1], I / v * (c.mTau : ℂ)),
   ([6, 1, 0], 1 / v * (c.mElectron : ℂ)), ([6, 1, 1], I / v * (c.mElectron : ℂ)),
   ([7, 3, 0], 1 / v * (c.mMu : ℂ)), ([7, 3, 1], I / v * (c.mMu : ℂ)),
   ([8, 5, 0], 1 / v * (c.mTau : ℂ)), ([8, 5, 1], I / v * (c.mTau : ℂ))]

/-- The tensor of the quarks. -/
noncomputable def quarkTensor (c : Constants) (v : ℝ) : List Nat → ℂ :=
  assign (quarks c v) zeroTensor

/-- The tensor of the leptons. -/
noncomputable def leptonTensor (c : Constants) (v : ℝ) : List Nat → ℂ :=
  assign (leptons c v) zeroTensor

set_option maxRecDepth 4000 in
theorem quarks_distinct (c : Constants) (v : ℝ) : Distinct (quarks c v) :=
  distinct_of_chain16 _ (by simp only [quarks, List.map_cons, List.map_nil]; decide)

theorem leptons_distinct (c : Constants) (v : ℝ) : Distinct (leptons c v) :=
  distinct_of_chain16 _ (by simp only [leptons, List.map_cons, List.map_nil]; decide)

set_option maxRecDepth 4000 in
set_option maxHeartbeats 1000000 in
/-- For all values of the quark fields and of the scalar fields `1/2 F2H1[a][b][k] ψ_a ψ_b φ_k` is
the documented Yukawa interaction of the quarks. -/
theorem C78_sm_quarks (c : Constants) (v : ℝ) (ψ : Fin 12 → ℂ) (φ : Fin 4 → ℝ) :
    form (quarkTensor c v) ψ φ =
      quarkYukawa c.ckm (coupling v c.up) (coupling v c.down) (SM.higgs φ) (SM.higgs φ)
        (quarkBasis ψ) := by
  rw [SM.higgs, Lagrangian.Spec.doublet, quark_scaled, quarkTensor, form_assign _ (quarks_distinct c v)]
  simp only [quarks, List.map_cons, List.map_nil, List.sum_cons, List.sum_nil, Lagrangian.ext, Nat.reduceLT,
    dite_true, Fin.reduceFinMk, Fin.sum_univ_three, Constants.ckm, Constants.up, Constants.down,
    quarkBasis, Matrix.of_apply, Matrix.cons_val, Matrix.cons_val_zero, Matrix.cons_val_one, map_add, map_mul,
    Complex.conj_ofReal, Complex.conj_I, div_eq_mul_inv, Fin.zero_eta, Fin.mk_one, Fin.isValue]
  ring

/-- For all values of the lepton fields and of the scalar fields `1/2 F2H1[a][b][k] ψ_a ψ_b φ_k` is
the documented Yukawa interaction of the leptons. -/
theorem C78_sm_leptons (c : Constants) (v : ℝ) (ψ : Fin 9 → ℂ) (φ : Fin 4 → ℝ) :
    form (leptonTensor c v) ψ φ =
      leptonYukawa (coupling v c.charged) (SM.higgs φ) (leptonBasis ψ) := by
  rw [SM.higgs, Lagrangian.Spec.doublet, lepton_scaled, leptonTensor, form_assign _ (leptons_distinct c v)]
  simp only [leptons, List.map_cons, List.map_nil, List.sum_cons, List.sum_nil, Lagrangian.ext, Nat.reduceLT,
    dite_true, Fin.reduceFinMk, Fin.sum_univ_three, Constants.charged,
    leptonBasis, Matrix.cons_val, Matrix.cons_val_zero, Matrix.cons_val_one, map_add, map_mul,
    div_eq_mul_inv, Fin.zero_eta, Fin.mk_one, Fin.isValue]
  ring

set_option maxRecDepth 4000 in
/-- The tensors do not depend on the order of the two fermions. -/
theorem C78_sm_symmetric (c : Constants) (v : ℝ) (a b k : Nat) :
    quarkTensor c v [a, b, k] = quarkTensor c v [b, a, k] ∧
      leptonTensor c v [a, b, k] = leptonTensor c v [b, a, k] := by
  constructor
  · have hd := quarks_distinct c v
    rw [quarkTensor, assign_look _ hd]
    refine (look_swap _ hd swapPair swapPair_swapPair ?_ [a, b, k]).symm
    simp only [quarks, List.forall_mem_cons]
    iterate 96 refine ⟨rfl, ?_⟩
    simp
  · have hd := leptons_distinct c v
    rw [leptonTensor, assign_look _ hd]
    refine (look_swap _ hd swapPair swapPair_swapPair ?_ [a, b, k]).symm
    simp only [leptons, List.forall_mem_cons]
    iterate 24 refine ⟨rfl, ?_⟩
    simp

end Verif.Yukawa.SM
