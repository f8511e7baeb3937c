import Verif.Debye.Assemble
import Verif.Lagrangian.DerivativeProps
import Verif.Spectrum.Vacuum

/-!
# Thermal masses of the models with one doublet
-/

namespace Verif.Debye

open Verif.Potential Verif.Potential.Spec Verif.Lagrangian Verif.Spectrum Verif.Yukawa Matrix
open scoped BigOperators ComplexConjugate

theorem tree_polynomial {n : Nat} {c : Curv n ℝ} {x : ℂ} (φ : FVec n ℝ)
    (h : ((vTree false (fun _ => 0) c φ 0 true : ℝ) : ℂ) = x) : polynomial c φ = x.re := by
  rw [← h, Complex.ofReal_re, C30_value false _ _ _ (by simp)]

/-- The potential of the standard model. -/
noncomputable def smPotential (m l : ℝ) (φ : Fin 4 → ℝ) : ℝ :=
  m * ((φ 0 ^ 2 + φ 1 ^ 2 + φ 2 ^ 2 + φ 3 ^ 2) / 2) +
    l * ((φ 0 ^ 2 + φ 1 ^ 2 + φ 2 ^ 2 + φ 3 ^ 2) / 2) ^ 2

theorem sm_laplacian (m l : ℝ) (φ : Fin 4 → ℝ) :
    ∑ k, secondDifference (smPotential m l) φ k =
      4 * m + 6 * l * (φ 0 ^ 2 + φ 1 ^ 2 + φ 2 ^ 2 + φ 3 ^ 2) := by
  simp only [Fin.sum_univ_four, secondDifference, smPotential, Fin.isValue, Fin.reduceEq, mul_one,
    mul_zero, add_zero, ↓reduceIte]
  ring

/-- The thermal masses of the standard model: `λ/2 + (3 g² + g'²)/16 + 1/4 Σ y_q² + 1/12 Σ y_l²` for
the four fields of the doublet. -/
theorem sm_higgs (p : SM.Par ℝ) (g gs : ℝ) (c : Constants) (hV : c.ckm ∈ unitaryGroup (Fin 3) ℂ)
    (v : ℝ) :
    Spec.IsDiagonal (higgsGeneral 4 12 9 (SM.tree p) (SM.gauge g gs) (Yukawa.SM.quarkTensor c v)
      (Yukawa.SM.leptonTensor c v)) (fun _ => p.lam / 2 + Spec.doublet g gs
        (Spec.couplings v c.up ++ Spec.couplings v c.down) (Spec.couplings v c.charged)) := by
  refine general_diagonal 12 9 _ (SM.C80_sm_tree_symmetric p) _
    (fun a i j => (SM.C77_sm_gauge_symmetric g gs a a i j).2) _ _ _ fun φ => ?_
  rw [raw_form 12 9 _ _ 0 _ _ (fun a b k => (Yukawa.SM.C78_sm_symmetric c v a b k).1)
    (fun a b k => (Yukawa.SM.C78_sm_symmetric c v a b k).2)]
  have hp : ∀ φ, polynomial (SM.tree p) φ = smPotential p.muSq p.lam φ := by
    intro φ
    rw [tree_polynomial φ (SM.C74_sm_potential p φ (fun _ => 0) true), SM.higgs_square, smPotential]
    norm_cast
  rw [quartic_trace _ (SM.C80_sm_tree_symmetric p) _ hp, sm_laplacian, sm_laplacian, sm_laplacian]
  rw [gaugeMatrix_one g gs _ 0 φ (fun a b i j => (SM.C77_sm_gauge_symmetric _ _ a b i j).1) _ _ _ _
    (fun W => SM.C77_sm_gauge _ _ W _), pauliGauge_trace]
  rw [quark_squared _ (fun a b k => (Yukawa.SM.C78_sm_symmetric c v a b k).1) φ _ _ _ _ _
    (fun ψ => Yukawa.SM.C78_sm_quarks c v ψ φ), trace_submatrix_equiv, quark_trace _ hV]
  rw [lepton_squared _ (fun a b k => (Yukawa.SM.C78_sm_symmetric c v a b k).2) φ _ _
    (fun ψ => Yukawa.SM.C78_sm_leptons c v ψ φ), trace_submatrix_equiv, lepton_trace]
  rw [Lagrangian.SM.higgs, size_doublet]
  simp only [Spec.doublet, List.map_append, List.sum_append, sum_couplings, Fin.sum_univ_four]
  ring

/-- The potential of the model with a complex singlet. -/
noncomputable def cxsmPotential (msq lam delta2 b2 d2 rb ib ra ia : ℝ) (φ : Fin 6 → ℝ) : ℝ :=
  msq / 2 * ((φ 0 ^ 2 + φ 1 ^ 2 + φ 2 ^ 2 + φ 3 ^ 2) / 2) +
    lam / 4 * ((φ 0 ^ 2 + φ 1 ^ 2 + φ 2 ^ 2 + φ 3 ^ 2) / 2) ^ 2 +
    delta2 / 2 * ((φ 0 ^ 2 + φ 1 ^ 2 + φ 2 ^ 2 + φ 3 ^ 2) / 2) * ((φ 4 ^ 2 + φ 5 ^ 2) / 2) +
    b2 / 2 * ((φ 4 ^ 2 + φ 5 ^ 2) / 2) + d2 / 4 * ((φ 4 ^ 2 + φ 5 ^ 2) / 2) ^ 2 +
    (rb / 4 * (φ 4 ^ 2 - φ 5 ^ 2) - ib / 2 * φ 4 * φ 5 + √2 * (ra * φ 4 - ia * φ 5))

theorem cxsm_laplacian (msq lam delta2 b2 d2 rb ib ra ia : ℝ) (φ : Fin 6 → ℝ) :
    ∑ k, secondDifference (cxsmPotential msq lam delta2 b2 d2 rb ib ra ia) φ k =
      2 * msq + b2 + (3 / 2 * lam + delta2 / 2) * (φ 0 ^ 2 + φ 1 ^ 2 + φ 2 ^ 2 + φ 3 ^ 2) +
        (d2 + delta2) * (φ 4 ^ 2 + φ 5 ^ 2) := by
  simp only [Fin.sum_univ_six, secondDifference, cxsmPotential, Fin.isValue, Fin.reduceEq, mul_one,
    mul_zero, add_zero, ↓reduceIte]
  ring

/-- The thermal masses of the standard model with a complex singlet: the doublet gets
`λ/8 + δ₂/24 + (3 g² + g'²)/16 + 1/4 Σ y_q² + 1/12 Σ y_l²` and the singlet `(d₂ + δ₂)/12`. -/
theorem cxsm_higgs (p : CxSM.Par) (g gs : ℝ) (c : Constants)
    (hV : c.ckm ∈ unitaryGroup (Fin 3) ℂ) (v : ℝ) :
    Spec.IsDiagonal (higgsGeneral 4 12 9 (CxSM.tree p) (CxSM.gauge g gs)
      (Yukawa.CxSM.quarkTensor c v) (Yukawa.CxSM.leptonTensor c v))
      (let d := p.lam / 8 + p.delta2 / 24 + Spec.doublet g gs
        (Spec.couplings v c.up ++ Spec.couplings v c.down) (Spec.couplings v c.charged)
       let s := (p.d2 + p.delta2) / 12
       ![d, d, d, d, s, s]) := by
  refine general_diagonal 12 9 _ (CxSM.C80_cxsm_tree_symmetric p) _
    (fun a i j => (CxSM.C77_cxsm_gauge_symmetric g gs a a i j).2) _ _ _ fun φ => ?_
  rw [raw_form 12 9 _ _ 0 _ _ (fun a b k => (Yukawa.CxSM.C78_cxsm_symmetric c v a b k).1)
    (fun a b k => (Yukawa.CxSM.C78_cxsm_symmetric c v a b k).2)]
  have hp : ∀ φ, polynomial (CxSM.tree p) φ = cxsmPotential p.msq p.lam p.delta2 p.b2 p.d2 p.Reb1
      p.Imb1 p.Rea1 p.Ima1 φ := by
    intro φ
    rw [tree_polynomial φ (CxSM.C74_cxsm_potential p φ (fun _ => 0) true), CxSM.potential_real,
      Complex.ofReal_re, cxsmPotential]
  rw [quartic_trace _ (CxSM.C80_cxsm_tree_symmetric p) _ hp, cxsm_laplacian, cxsm_laplacian,
    cxsm_laplacian]
  rw [gaugeMatrix_one g gs _ 0 φ (fun a b i j => (CxSM.C77_cxsm_gauge_symmetric _ _ a b i j).1) _ _ _
    _ (fun W => CxSM.C77_cxsm_gauge _ _ W _), pauliGauge_trace]
  rw [quark_squared _ (fun a b k => (Yukawa.CxSM.C78_cxsm_symmetric c v a b k).1) φ _ _ _ _ _
    (fun ψ => Yukawa.CxSM.C78_cxsm_quarks c v ψ φ), trace_submatrix_equiv, quark_trace _ hV]
  rw [lepton_squared _ (fun a b k => (Yukawa.CxSM.C78_cxsm_symmetric c v a b k).2) φ _ _
    (fun ψ => Yukawa.CxSM.C78_cxsm_leptons c v ψ φ), trace_submatrix_equiv, lepton_trace]
  rw [Lagrangian.CxSM.higgs, size_doublet]
  simp only [Spec.doublet, List.map_append, List.sum_append, sum_couplings, Fin.sum_univ_six,
    Matrix.cons_val, Matrix.cons_val_zero, Matrix.cons_val_one]
  ring

end Verif.Debye
