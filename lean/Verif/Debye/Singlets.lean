import Verif.Debye.TwoDoublets

/-!
# Thermal masses of the models with two doublets and a real singlet
-/

namespace Verif.Debye

open Verif.Potential Verif.Potential.Spec Verif.Lagrangian Verif.Spectrum Verif.Yukawa Matrix
open scoped BigOperators ComplexConjugate

/-- The potential of two doublets and a real singlet in real components. -/
noncomputable def singletReal (u1 u2 : ℝ) (m12 : ℂ) (l1 l2 l3 l4 : ℝ) (l5 A : ℂ) (us l6 l7 l8 : ℝ)
    (a b c d e f g h s : ℝ) : ℝ :=
  twoDoubletReal u1 u2 m12 l1 l2 l3 l4 l5 a b c d e f g h + us / 2 * s ^ 2 +
    (A.re * (a * e + b * f + c * g + d * h) - A.im * (a * f - b * e + c * h - d * g)) * s +
    l6 / 8 * s ^ 4 + l7 / 2 * ((a ^ 2 + b ^ 2 + c ^ 2 + d ^ 2) / 2) * s ^ 2 +
    l8 / 2 * ((e ^ 2 + f ^ 2 + g ^ 2 + h ^ 2) / 2) * s ^ 2

theorem n2hdm_laplacian (u1 u2 : ℝ) (m12 : ℂ) (l1 l2 l3 l4 : ℝ) (l5 : ℂ) (us l6 l7 l8 : ℝ)
    (φ : Fin 9 → ℝ) :
    ∑ k, secondDifference (fun φ : Fin 9 → ℝ => singletReal u1 u2 m12 l1 l2 l3 l4 l5 0 us l6 l7 l8
      (φ 0) (φ 2) (φ 6) (φ 4) (φ 1) (φ 3) (φ 7) (φ 5) (φ 8)) φ k =
    4 * u1 + 4 * u2 + us +
      (3 * l1 + 2 * l3 + l4 + l7 / 2) * (φ 0 ^ 2 + φ 2 ^ 2 + φ 6 ^ 2 + φ 4 ^ 2) +
      (3 * l2 + 2 * l3 + l4 + l8 / 2) * (φ 1 ^ 2 + φ 3 ^ 2 + φ 7 ^ 2 + φ 5 ^ 2) +
      (3 / 2 * l6 + 2 * l7 + 2 * l8) * φ 8 ^ 2 := by
  simp only [Fin.sum_univ_castSucc, Finset.univ_eq_empty, Finset.sum_empty, Fin.reduceLast,
    Fin.reduceCastSucc, secondDifference, singletReal, twoDoubletReal, Fin.isValue, Fin.reduceEq,
    mul_one, mul_zero, add_zero, ↓reduceIte, Complex.zero_re, Complex.zero_im, zero_mul, sub_zero]
  ring

theorem cpinthedark_laplacian (u1 u2 : ℝ) (l1 l2 l3 l4 : ℝ) (l5 A : ℂ) (us l6 l7 l8 : ℝ)
    (φ : Fin 9 → ℝ) :
    ∑ k, secondDifference (fun φ : Fin 9 → ℝ => singletReal u1 u2 0 l1 l2 l3 l4 l5 A us l6 l7 l8
      (φ 0) (φ 1) (φ 4) (φ 5) (φ 2) (φ 3) (φ 6) (φ 7) (φ 8)) φ k =
    4 * u1 + 4 * u2 + us +
      (3 * l1 + 2 * l3 + l4 + l7 / 2) * (φ 0 ^ 2 + φ 1 ^ 2 + φ 4 ^ 2 + φ 5 ^ 2) +
      (3 * l2 + 2 * l3 + l4 + l8 / 2) * (φ 2 ^ 2 + φ 3 ^ 2 + φ 6 ^ 2 + φ 7 ^ 2) +
      (3 / 2 * l6 + 2 * l7 + 2 * l8) * φ 8 ^ 2 := by
  simp only [Fin.sum_univ_castSucc, Finset.univ_eq_empty, Finset.sum_empty, Fin.reduceLast,
    Fin.reduceCastSucc, secondDifference, singletReal, twoDoubletReal, Fin.isValue, Fin.reduceEq,
    mul_one, mul_zero, add_zero, ↓reduceIte, Complex.zero_re, Complex.zero_im, zero_mul, sub_zero]
  ring

/-- The thermal masses of the next-to-minimal two Higgs doublet model in the general calculation. -/
theorem n2hdm_higgs (p : N2HDM.Par ℝ) (g gs : ℝ) (c : Constants)
    (hV : c.ckm ∈ unitaryGroup (Fin 3) ℂ) (v1 v2 : ℝ) (type : Int) (ht : TwoHDM.Documented type) :
    Spec.IsDiagonal (higgsGeneral 4 12 9 (N2HDM.tree p) (N2HDM.gauge g gs)
      (TwoHDM.quarkTensorN c v1 v2 type) (TwoHDM.leptonTensorN c v1 v2 type))
      (let d1 := Spec.firstDoublet type c v1 p.L1 p.L3 p.L4 g gs + p.NL7 / 24
       let d2 := Spec.secondDoublet type c v2 p.L2 p.L3 p.L4 g gs + p.NL8 / 24
       let s := (p.NL7 + p.NL8) / 6 + p.NL6 / 8
       ![d1, d2, d1, d2, d1, d2, d1, d2, s]) := by
  refine general_diagonal 12 9 _ (N2HDM.C80_n2hdm_tree_symmetric p) _
    (fun a i j => (N2HDM.C77_n2hdm_gauge_symmetric g gs a a i j).2) _ _ _ fun φ => ?_
  rw [raw_form 12 9 _ _ 0 _ _ (fun a b k => (TwoHDM.C78_n2hdm_symmetric c v1 v2 type a b k).1)
    (fun a b k => (TwoHDM.C78_n2hdm_symmetric c v1 v2 type a b k).2)]
  have hp : ∀ φ, polynomial (N2HDM.tree p) φ = singletReal p.u1 p.u2 p.RealMMix p.L1 p.L2 p.L3
      p.L4 p.RL5 0 p.Nus p.NL6 p.NL7 p.NL8 (φ 0) (φ 2) (φ 6) (φ 4) (φ 1) (φ 3) (φ 7) (φ 5) (φ 8) := by
    intro φ
    obtain ⟨x, hx, hd⟩ := N2HDM.documented_real p.u1 p.u2 p.RealMMix p.L1 p.L2 p.L3 p.L4 p.RL5 p.Nus
      p.NL6 p.NL7 p.NL8 φ
    rw [tree_polynomial φ (N2HDM.C74_n2hdm_potential p φ (fun _ => 0) true), hd, Complex.ofReal_re]
    rw [N2HDM.phi1, N2HDM.phi2, twoDoublet_real_zero] at hx
    rw [singletReal, ← Complex.ofReal_injective hx, Complex.zero_re, Complex.zero_im]
    ring
  rw [quartic_trace _ (N2HDM.C80_n2hdm_tree_symmetric p) _ hp, n2hdm_laplacian, n2hdm_laplacian,
    n2hdm_laplacian]
  rw [gaugeMatrix_two g gs _ 0 φ (fun a b i j => (N2HDM.C77_n2hdm_gauge_symmetric _ _ a b i j).1) _ _
    _ _ _ _ _ _ (fun W => N2HDM.C77_n2hdm_gauge _ _ W _), pauliGauge_trace]
  rw [quark_squared _ (fun a b k => (TwoHDM.C78_n2hdm_symmetric c v1 v2 type a b k).1) φ _ _ _ _ _
    (fun ψ => TwoHDM.C78_n2hdm_quarks c v1 v2 type ht ψ φ), trace_submatrix_equiv, quark_trace _ hV]
  rw [lepton_squared _ (fun a b k => (TwoHDM.C78_n2hdm_symmetric c v1 v2 type a b k).2) φ _ _
    (fun ψ => TwoHDM.C78_n2hdm_leptons c v1 v2 type ht ψ φ), trace_submatrix_equiv, lepton_trace]
  have key := fermion_sizes ht c v1 v2 p.L1 p.L2 p.L3 p.L4 g gs (N2HDM.phi1 φ) (N2HDM.phi2 φ)
  have s1 : size (N2HDM.phi1 φ) = (φ 0 ^ 2 + φ 2 ^ 2 + φ 6 ^ 2 + φ 4 ^ 2) / 2 :=
    size_doublet _ _ _ _
  have s2 : size (N2HDM.phi2 φ) = (φ 1 ^ 2 + φ 3 ^ 2 + φ 7 ^ 2 + φ 5 ^ 2) / 2 :=
    size_doublet _ _ _ _
  rw [s1, s2] at key
  rw [s2]
  simp only [Fin.sum_univ_castSucc, Finset.univ_eq_empty, Finset.sum_empty, Fin.reduceLast,
    Fin.reduceCastSucc, Matrix.cons_val, Matrix.cons_val_zero, Matrix.cons_val_one] at key ⊢
  linear_combination key

/-- The thermal masses of CP in the Dark: all fermions couple to the first doublet, and the quartic
coupling of the singlet is `λ6 = 2 L6`. -/
theorem cpinthedark_higgs (p : CPintheDark.Par ℝ) (g gs : ℝ) (c : Constants)
    (hV : c.ckm ∈ unitaryGroup (Fin 3) ℂ) (v : ℝ) :
    Spec.IsDiagonal (higgsGeneral 4 12 9 (CPintheDark.tree p) (CPintheDark.gauge g gs)
      (Yukawa.CPintheDark.quarkTensor c v) (Yukawa.CPintheDark.leptonTensor c v))
      (let d1 := (12 * p.L1 + 8 * p.L3 + 4 * p.L4) / 48 + p.L7 / 24 + Spec.doublet g gs
        (Spec.couplings v c.up ++ Spec.couplings v c.down) (Spec.couplings v c.charged)
       let d2 := (12 * p.L2 + 8 * p.L3 + 4 * p.L4) / 48 + p.L8 / 24 + Spec.doublet g gs [] []
       let s := (p.L7 + p.L8) / 6 + (2 * p.L6) / 8
       ![d1, d1, d2, d2, d1, d1, d2, d2, s]) := by
  refine general_diagonal 12 9 _ (CPintheDark.C80_cpinthedark_tree_symmetric p) _
    (fun a i j => (CPintheDark.C77_cpinthedark_gauge_symmetric g gs a a i j).2) _ _ _ fun φ => ?_
  rw [raw_form 12 9 _ _ 0 _ _
    (fun a b k => (Yukawa.CPintheDark.C78_cpinthedark_symmetric c v a b k).1)
    (fun a b k => (Yukawa.CPintheDark.C78_cpinthedark_symmetric c v a b k).2)]
  have hp : ∀ φ, polynomial (CPintheDark.tree p) φ = singletReal p.m11s p.m22s 0 p.L1 p.L2 p.L3
      p.L4 ⟨p.L5, 0⟩ ⟨p.ReA, p.ImA⟩ p.mSs (2 * p.L6) p.L7 p.L8 (φ 0) (φ 1) (φ 4) (φ 5) (φ 2) (φ 3)
        (φ 6) (φ 7) (φ 8) := by
    intro φ
    obtain ⟨x, hx, hd⟩ := CPintheDark.documented_real p.m11s p.m22s p.mSs ⟨p.ReA, p.ImA⟩ p.L1 p.L2
      p.L3 p.L4 ⟨p.L5, 0⟩ (2 * p.L6) p.L7 p.L8 φ
    have h := tree_polynomial φ (CPintheDark.C74_cpinthedark_potential p φ (fun _ => 0) true)
    rw [h, hd, Complex.ofReal_re]
    rw [CPintheDark.phi1, CPintheDark.phi2, twoDoublet_real_zero] at hx
    rw [singletReal, ← Complex.ofReal_injective hx]
  rw [quartic_trace _ (CPintheDark.C80_cpinthedark_tree_symmetric p) _ hp, cpinthedark_laplacian,
    cpinthedark_laplacian, cpinthedark_laplacian]
  rw [gaugeMatrix_two g gs _ 0 φ
    (fun a b i j => (CPintheDark.C77_cpinthedark_gauge_symmetric _ _ a b i j).1) _ _ _ _ _ _ _ _
    (fun W => CPintheDark.C77_cpinthedark_gauge _ _ W _), pauliGauge_trace]
  rw [darkQuark_squared _ (fun a b k => (Yukawa.CPintheDark.C78_cpinthedark_symmetric c v a b k).1) φ
    _ _ _ _ _ (fun ψ => Yukawa.CPintheDark.C78_cpinthedark_quarks c v ψ φ), trace_submatrix_equiv,
    quark_trace _ hV]
  rw [lepton_squared _ (fun a b k => (Yukawa.CPintheDark.C78_cpinthedark_symmetric c v a b k).2) φ _ _
    (fun ψ => Yukawa.CPintheDark.C78_cpinthedark_leptons c v ψ φ), trace_submatrix_equiv,
    lepton_trace]
  rw [Lagrangian.CPintheDark.phi1, size_doublet]
  simp only [Spec.doublet, List.map_append, List.sum_append, sum_couplings, Fin.sum_univ_castSucc,
    Finset.univ_eq_empty, Finset.sum_empty, Fin.reduceLast, Fin.reduceCastSucc, Matrix.cons_val,
    Matrix.cons_val_zero, Matrix.cons_val_one, List.map_nil, List.sum_nil]
  ring

end Verif.Debye
