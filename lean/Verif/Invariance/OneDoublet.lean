import Verif.Invariance.Assemble

/-!
# Models with one doublet
-/

namespace Verif.Invariance

open Verif.Potential Verif.Potential.Spec Verif.Lagrangian Verif.Lagrangian.Spec Verif.Spectrum
  Verif.Yukawa Verif.Debye Matrix
open scoped BigOperators ComplexConjugate

/-! ### Standard model -/

/-- The tensors of the standard model. -/
noncomputable def smTensors (p : SM.Par ℝ) (g gs : ℝ) (c : Constants) (v : ℝ) (force : Bool)
    (D : Matrix (Fin 4) (Fin 4) ℝ) : Tensors 4 :=
  assemble (SM.tree p) (SM.gauge g gs) (Yukawa.SM.quarkTensor c v) (Yukawa.SM.leptonTensor c v)
    notSimplified force D

theorem sm_dagger (a : Fin 4) (θ : ℝ) (φ : Fin 4 → ℝ) :
    dagger (SM.higgs (rotate (SM.generator a) θ φ)) (SM.higgs (rotate (SM.generator a) θ φ)) =
      dagger (SM.higgs φ) (SM.higgs φ) := by
  rw [SM.higgs_rotate]
  exact dagger_rotation a θ _ _ _ _ _ _ _ _

theorem sm_square (a : Fin 4) (θ : ℝ) (φ : Fin 4 → ℝ) :
    ∑ i, rotate (SM.generator a) θ φ i ^ 2 = ∑ i, φ i ^ 2 := by
  have h := sm_dagger a θ φ
  rw [SM.higgs_square, SM.higgs_square] at h
  have h' := Complex.ofReal_injective h
  simp only [Fin.sum_univ_four]
  linear_combination 2 * h'

theorem sm_loop {S : Solver} (hS : S.Correct) (p : SM.Par ℝ) (g gs : ℝ) (c : Constants)
    (hV : c.ckm ∈ unitaryGroup (Fin 3) ℂ) (v : ℝ) (force : Bool) (D : Matrix (Fin 4) (Fin 4) ℝ)
    (hD : ∃ x y, D = diagonal ![x, x, x, y]) (scale : ℝ) (JB JF : Thermal) (T : ℝ) :
    SM.GaugeInvariant fun φ => v1Loop ((smTensors p g gs c v force D).spectra S scale JB JF) φ T 0 := by
  obtain ⟨x, y, rfl⟩ := hD
  intro a θ φ
  have hH := C81_sm_higgs p g gs c hV v force (fun _ _ => 0)
  refine loop_invariant hS _ (fun a b k => (Yukawa.SM.C78_sm_symmetric c v a b k).1)
    (fun a b k => (Yukawa.SM.C78_sm_symmetric c v a b k).2) scale JB JF _ _ T (fun T => ?_) (fun T => ?_) ?_ ?_
  · refine scalar_invariant _ (SM.C80_sm_tree_symmetric p) (rotateL (SM.generator a) θ) (fun φ => ?_)
      (sm_square a θ) _ hH.2 (fun φ => ?_) φ T
    · rw [tree_polynomial _ (SM.C74_sm_potential p _ (fun _ => 0) true),
        tree_polynomial _ (SM.C74_sm_potential p _ (fun _ => 0) true), rotateL_apply, sm_dagger]
    · have e : ∀ i, (smTensors p g gs c v force (diagonal ![x, x, x, y])).debyeHiggs i i =
          (smTensors p g gs c v force (diagonal ![x, x, x, y])).debyeHiggs 0 0 :=
        fun i => rounded_unique (hH.1 i) (hH.1 0)
      have h := congrArg ((smTensors p g gs c v force (diagonal ![x, x, x, y])).debyeHiggs 0 0 * ·)
        (sm_square a θ φ)
      simp only [Finset.mul_sum] at h
      refine Eq.trans (Finset.sum_congr rfl fun i _ => ?_) (h.trans (Finset.sum_congr rfl fun i _ => ?_))
      · exact congrArg₂ (· * ·) (e i) rfl
      · exact congrArg₂ (· * ·) (e i).symm rfl
  · refine gauge_one g gs _ x y T φ _ (fun a b i j => (SM.C77_sm_gauge_symmetric _ _ a b i j).1)
      (fun W => SM.C77_sm_gauge g gs W φ) (a := a) (θ := θ) fun W => ?_
    rw [← SM.higgs, ← SM.higgs_rotate]
    exact SM.C77_sm_gauge g gs W _
  · refine quark_charpoly _ (fun a b k => (Yukawa.SM.C78_sm_symmetric c v a b k).1) φ _ _ hV _ _
      (fun ψ => Yukawa.SM.C78_sm_quarks c v ψ φ) (a := a) (θ := θ) fun ψ => ?_
    rw [← SM.higgs_rotate]
    exact Yukawa.SM.C78_sm_quarks c v ψ _
  · refine lepton_charpoly _ (fun a b k => (Yukawa.SM.C78_sm_symmetric c v a b k).2) φ _ _
      (fun ψ => Yukawa.SM.C78_sm_leptons c v ψ φ) (a := a) (θ := θ) fun ψ => ?_
    rw [← SM.higgs_rotate]
    exact Yukawa.SM.C78_sm_leptons c v ψ _

/-! ### Standard model with a complex singlet -/

/-- The tensors of the standard model with a complex singlet. -/
noncomputable def cxsmTensors (p : CxSM.Par) (g gs : ℝ) (c : Constants) (v : ℝ) (force : Bool)
    (D : Matrix (Fin 4) (Fin 4) ℝ) : Tensors 6 :=
  assemble (CxSM.tree p) (CxSM.gauge g gs) (Yukawa.CxSM.quarkTensor c v) (Yukawa.CxSM.leptonTensor c v)
    notSimplified force D

theorem cxsm_dagger (a : Fin 4) (θ : ℝ) (φ : Fin 6 → ℝ) :
    dagger (CxSM.higgs (rotate (CxSM.generator a) θ φ)) (CxSM.higgs (rotate (CxSM.generator a) θ φ)) =
      dagger (CxSM.higgs φ) (CxSM.higgs φ) := by
  rw [(CxSM.higgs_rotate a θ φ).1]
  exact dagger_rotation a θ _ _ _ _ _ _ _ _

theorem cxsm_square (a : Fin 4) (θ : ℝ) (φ : Fin 6 → ℝ) (d s : ℝ) :
    ∑ i, ![d, d, d, d, s, s] i * rotate (CxSM.generator a) θ φ i ^ 2 =
      ∑ i, ![d, d, d, d, s, s] i * φ i ^ 2 := by
  have h := cxsm_dagger a θ φ
  rw [CxSM.higgs_square, CxSM.higgs_square] at h
  have h' := Complex.ofReal_injective h
  have h4 : rotate (CxSM.generator a) θ φ 4 = φ 4 := by
    simp only [rotate_apply, CxSM.generator_apply]
    fin_cases a <;> simp
  have h5 : rotate (CxSM.generator a) θ φ 5 = φ 5 := by
    simp only [rotate_apply, CxSM.generator_apply]
    fin_cases a <;> simp
  simp only [Fin.sum_univ_six, h4, h5, Matrix.cons_val, Matrix.cons_val_zero, Matrix.cons_val_one]
  linear_combination 2 * d * h'

theorem cxsm_loop {S : Solver} (hS : S.Correct) (p : CxSM.Par) (g gs : ℝ) (c : Constants)
    (hV : c.ckm ∈ unitaryGroup (Fin 3) ℂ) (v : ℝ) (force : Bool) (D : Matrix (Fin 4) (Fin 4) ℝ)
    (hD : ∃ x y, D = diagonal ![x, x, x, y]) (scale : ℝ) (JB JF : Thermal) (T : ℝ) :
    CxSM.GaugeInvariant fun φ =>
      v1Loop ((cxsmTensors p g gs c v force D).spectra S scale JB JF) φ T 0 := by
  obtain ⟨x, y, rfl⟩ := hD
  intro a θ φ
  have hH := C81_cxsm_higgs p g gs c hV v force (fun _ _ => 0)
  refine loop_invariant hS _ (fun a b k => (Yukawa.CxSM.C78_cxsm_symmetric c v a b k).1)
    (fun a b k => (Yukawa.CxSM.C78_cxsm_symmetric c v a b k).2) scale JB JF _ _ T (fun T => ?_) (fun T => ?_) ?_ ?_
  · refine scalar_invariant _ (CxSM.C80_cxsm_tree_symmetric p) (rotateL (CxSM.generator a) θ) (fun φ => ?_)
      (fun φ => ?_) _ hH.2 (fun φ => ?_) φ T
    · rw [tree_polynomial _ (CxSM.C74_cxsm_potential p _ (fun _ => 0) true),
        tree_polynomial _ (CxSM.C74_cxsm_potential p _ (fun _ => 0) true), rotateL_apply,
        (CxSM.higgs_rotate a θ φ).2, CxSM.potential, CxSM.potential, cxsm_dagger]
    · have := cxsm_square a θ φ 1 1
      simpa [Fin.sum_univ_six, rotateL_apply] using this
    · set t := (cxsmTensors p g gs c v force (diagonal ![x, x, x, y])).debyeHiggs with ht
      have e : ∀ i, t i i = ![t 0 0, t 0 0, t 0 0, t 0 0, t 4 4, t 4 4] i := by
        intro i
        fin_cases i
        · rfl
        · exact rounded_unique (hH.1 1) (hH.1 0)
        · exact rounded_unique (hH.1 2) (hH.1 0)
        · exact rounded_unique (hH.1 3) (hH.1 0)
        · rfl
        · exact rounded_unique (hH.1 5) (hH.1 4)
      have := cxsm_square a θ φ (t 0 0) (t 4 4)
      simp only [← e] at this
      exact this
  · refine gauge_one g gs _ x y T φ _ (fun a b i j => (CxSM.C77_cxsm_gauge_symmetric _ _ a b i j).1)
      (fun W => CxSM.C77_cxsm_gauge g gs W φ) (a := a) (θ := θ) fun W => ?_
    rw [← CxSM.higgs, ← (CxSM.higgs_rotate a θ φ).1]
    exact CxSM.C77_cxsm_gauge g gs W _
  · refine quark_charpoly _ (fun a b k => (Yukawa.CxSM.C78_cxsm_symmetric c v a b k).1) φ _ _ hV _ _
      (fun ψ => Yukawa.CxSM.C78_cxsm_quarks c v ψ φ) (a := a) (θ := θ) fun ψ => ?_
    rw [← (CxSM.higgs_rotate a θ φ).1]
    exact Yukawa.CxSM.C78_cxsm_quarks c v ψ _
  · refine lepton_charpoly _ (fun a b k => (Yukawa.CxSM.C78_cxsm_symmetric c v a b k).2) φ _ _
      (fun ψ => Yukawa.CxSM.C78_cxsm_leptons c v ψ φ) (a := a) (θ := θ) fun ψ => ?_
    rw [← (CxSM.higgs_rotate a θ φ).1]
    exact Yukawa.CxSM.C78_cxsm_leptons c v ψ _

end Verif.Invariance
