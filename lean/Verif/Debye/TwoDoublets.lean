import Verif.Debye.OneDoublet

/-!
# Thermal masses of the models with two doublets
-/

namespace Verif.Debye

open Verif.Potential Verif.Potential.Spec Verif.Lagrangian Verif.Spectrum Verif.Yukawa Matrix
open scoped BigOperators ComplexConjugate

/-- The potential of two doublets in real components. -/
noncomputable def twoDoubletReal (u1 u2 : ℝ) (m12 : ℂ) (l1 l2 l3 l4 : ℝ) (l5 : ℂ)
    (a b c d e f g h : ℝ) : ℝ :=
  u1 * ((a ^ 2 + b ^ 2 + c ^ 2 + d ^ 2) / 2) + u2 * ((e ^ 2 + f ^ 2 + g ^ 2 + h ^ 2) / 2) +
    l1 / 2 * ((a ^ 2 + b ^ 2 + c ^ 2 + d ^ 2) / 2) ^ 2 +
    l2 / 2 * ((e ^ 2 + f ^ 2 + g ^ 2 + h ^ 2) / 2) ^ 2 +
    l3 * ((a ^ 2 + b ^ 2 + c ^ 2 + d ^ 2) / 2) * ((e ^ 2 + f ^ 2 + g ^ 2 + h ^ 2) / 2) +
    l4 * (((a * e + b * f + c * g + d * h) / 2) ^ 2 +
      ((a * f - b * e + c * h - d * g) / 2) ^ 2) +
    (l5.re * (((a * e + b * f + c * g + d * h) / 2) ^ 2 -
      ((a * f - b * e + c * h - d * g) / 2) ^ 2) -
      2 * l5.im * ((a * e + b * f + c * g + d * h) / 2) *
        ((a * f - b * e + c * h - d * g) / 2)) -
    2 * (m12.re * ((a * e + b * f + c * g + d * h) / 2) -
      m12.im * ((a * f - b * e + c * h - d * g) / 2))

theorem twoDoublet_real_zero (u1 u2 : ℝ) (m12 : ℂ) (l1 l2 l3 l4 : ℝ) (l5 : ℂ)
    (a b c d e f g h : ℝ) :
    Lagrangian.Spec.twoDoublet u1 u2 m12 l1 l2 l3 l4 l5 0 (Lagrangian.Spec.doublet a b c d)
      (Lagrangian.Spec.doublet e f g h) =
    ((twoDoubletReal u1 u2 m12 l1 l2 l3 l4 l5 a b c d e f g h : ℝ) : ℂ) := by
  rw [Lagrangian.Spec.twoDoublet_real, twoDoubletReal]
  congr 1
  simp only [Complex.zero_re, Complex.zero_im, zero_mul, sub_zero, mul_zero, add_zero]

theorem twoDoublet_laplacian (u1 u2 : ℝ) (m12 : ℂ) (l1 l2 l3 l4 : ℝ) (l5 : ℂ) (φ : Fin 8 → ℝ) :
    ∑ k, secondDifference (fun φ : Fin 8 → ℝ => twoDoubletReal u1 u2 m12 l1 l2 l3 l4 l5 (φ 0) (φ 1)
      (φ 4) (φ 5) (φ 2) (φ 3) (φ 6) (φ 7)) φ k =
    4 * u1 + 4 * u2 + (3 * l1 + 2 * l3 + l4) * (φ 0 ^ 2 + φ 1 ^ 2 + φ 4 ^ 2 + φ 5 ^ 2) +
      (3 * l2 + 2 * l3 + l4) * (φ 2 ^ 2 + φ 3 ^ 2 + φ 6 ^ 2 + φ 7 ^ 2) := by
  simp only [Fin.sum_univ_eight, secondDifference, twoDoubletReal, Fin.isValue, Fin.reduceEq,
    mul_one, mul_zero, add_zero, ↓reduceIte]
  ring

/-- The thermal mass of the first of two doublets: `(12 λ1 + 8 λ3 + 4 λ4)/48` and the contributions of
the gauge bosons and of the fermions that couple to this doublet. The down-type quarks do so in the
types 2 and 4, the charged leptons in the types 2 and 3. -/
noncomputable def Spec.firstDoublet (type : Int) (c : Constants) (v1 : ℝ) (l1 l3 l4 g gs : ℝ) : ℝ :=
  (12 * l1 + 8 * l3 + 4 * l4) / 48 + Spec.doublet g gs
    (if type = 2 ∨ type = 4 then Spec.couplings v1 c.down else [])
    (if type = 2 ∨ type = 3 then Spec.couplings v1 c.charged else [])

/-- The thermal mass of the second of two doublets: all up-type quarks, the down-type quarks in the
types 1 and 3, and the charged leptons in the types 1 and 4. -/
noncomputable def Spec.secondDoublet (type : Int) (c : Constants) (v2 : ℝ) (l2 l3 l4 g gs : ℝ) : ℝ :=
  (12 * l2 + 8 * l3 + 4 * l4) / 48 + Spec.doublet g gs
    (Spec.couplings v2 c.up ++ if type = 1 ∨ type = 3 then Spec.couplings v2 c.down else [])
    (if type = 1 ∨ type = 4 then Spec.couplings v2 c.charged else [])

theorem fermion_sizes {type : Int} (ht : TwoHDM.Documented type) (c : Constants)
    (v1 v2 l1 l2 l3 l4 g gs : ℝ) (Φ1 Φ2 : Fin 2 → ℂ) :
    (3 * l1 + 2 * l3 + l4) / 12 * (2 * size Φ1) + (3 * l2 + 2 * l3 + l4) / 12 * (2 * size Φ2) +
      (3 * g ^ 2 + gs ^ 2) / 16 * (2 * size Φ1 + 2 * size Φ2) +
      1 / 2 * ((∑ i, Yukawa.Spec.coupling v2 c.up i ^ 2) * size Φ2 +
        (∑ i, Yukawa.Spec.coupling (Yukawa.Spec.downVev type v1 v2) c.down i ^ 2) *
          size (Yukawa.Spec.downDoublet type Φ1 Φ2)) +
      1 / 6 * ((∑ i, Yukawa.Spec.coupling (Yukawa.Spec.leptonVev type v1 v2) c.charged i ^ 2) *
          size (Yukawa.Spec.leptonDoublet type Φ1 Φ2)) =
    Spec.firstDoublet type c v1 l1 l3 l4 g gs * (2 * size Φ1) +
      Spec.secondDoublet type c v2 l2 l3 l4 g gs * (2 * size Φ2) := by
  rcases ht with rfl | rfl | rfl | rfl <;>
    simp [Spec.firstDoublet, Spec.secondDoublet, Spec.doublet, Yukawa.Spec.downVev,
      Yukawa.Spec.downDoublet, Yukawa.Spec.leptonVev, Yukawa.Spec.leptonDoublet, sum_couplings] <;> ring

/-- The thermal masses of the real two Higgs doublet model in the general calculation. -/
theorem r2hdm_higgs (p : R2HDM.Par ℝ) (g gs : ℝ) (c : Constants)
    (hV : c.ckm ∈ unitaryGroup (Fin 3) ℂ) (v1 v2 : ℝ) (type : Int) (ht : TwoHDM.Documented type) :
    Spec.IsDiagonal (higgsGeneral 4 12 9 (R2HDM.tree p) (R2HDM.gauge g gs)
      (TwoHDM.quarkTensor c v1 v2 type) (TwoHDM.leptonTensor c v1 v2 type))
      (let d1 := Spec.firstDoublet type c v1 p.L1 p.L3 p.L4 g gs
       let d2 := Spec.secondDoublet type c v2 p.L2 p.L3 p.L4 g gs
       ![d1, d1, d2, d2, d1, d1, d2, d2]) := by
  refine general_diagonal 12 9 _ (R2HDM.C80_r2hdm_tree_symmetric p) _
    (fun a i j => (R2HDM.C77_r2hdm_gauge_symmetric g gs a a i j).2) _ _ _ fun φ => ?_
  rw [raw_form 12 9 _ _ 0 _ _ (fun a b k => (TwoHDM.C78_2hdm_symmetric c v1 v2 type a b k).1)
    (fun a b k => (TwoHDM.C78_2hdm_symmetric c v1 v2 type a b k).2)]
  have hp : ∀ φ, polynomial (R2HDM.tree p) φ = twoDoubletReal p.u1 p.u2 p.RealMMix p.L1 p.L2 p.L3
      p.L4 p.RL5 (φ 0) (φ 1) (φ 4) (φ 5) (φ 2) (φ 3) (φ 6) (φ 7) := by
    intro φ
    rw [tree_polynomial φ (R2HDM.C74_r2hdm_potential p φ (fun _ => 0) true), TwoDoublets.phi1,
      TwoDoublets.phi2, twoDoublet_real_zero, Complex.ofReal_re]
  rw [quartic_trace _ (R2HDM.C80_r2hdm_tree_symmetric p) _ hp, twoDoublet_laplacian,
    twoDoublet_laplacian, twoDoublet_laplacian]
  rw [gaugeMatrix_two g gs _ 0 φ (fun a b i j => (R2HDM.C77_r2hdm_gauge_symmetric _ _ a b i j).1) _ _ _ _
    _ _ _ _ (fun W => R2HDM.C77_r2hdm_gauge _ _ W _), pauliGauge_trace]
  rw [quark_squared _ (fun a b k => (TwoHDM.C78_2hdm_symmetric c v1 v2 type a b k).1) φ _ _ _ _ _
    (fun ψ => TwoHDM.C78_2hdm_quarks c v1 v2 type ht ψ φ), trace_submatrix_equiv, quark_trace _ hV]
  rw [lepton_squared _ (fun a b k => (TwoHDM.C78_2hdm_symmetric c v1 v2 type a b k).2) φ _ _
    (fun ψ => TwoHDM.C78_2hdm_leptons c v1 v2 type ht ψ φ), trace_submatrix_equiv, lepton_trace]
  have key := fermion_sizes ht c v1 v2 p.L1 p.L2 p.L3 p.L4 g gs (TwoDoublets.phi1 φ)
    (TwoDoublets.phi2 φ)
  have s1 : size (TwoDoublets.phi1 φ) = (φ 0 ^ 2 + φ 1 ^ 2 + φ 4 ^ 2 + φ 5 ^ 2) / 2 :=
    size_doublet _ _ _ _
  have s2 : size (TwoDoublets.phi2 φ) = (φ 2 ^ 2 + φ 3 ^ 2 + φ 6 ^ 2 + φ 7 ^ 2) / 2 :=
    size_doublet _ _ _ _
  rw [s1, s2] at key
  rw [s2]
  simp only [Fin.sum_univ_eight, Matrix.cons_val, Matrix.cons_val_zero, Matrix.cons_val_one]
  linear_combination key

/-- The thermal masses of the complex two Higgs doublet model in the general calculation. -/
theorem c2hdm_higgs (p : C2HDM.Par ℝ) (g gs : ℝ) (c : Constants)
    (hV : c.ckm ∈ unitaryGroup (Fin 3) ℂ) (v1 v2 : ℝ) (type : Int) (ht : TwoHDM.Documented type) :
    Spec.IsDiagonal (higgsGeneral 4 12 9 (C2HDM.tree p) (C2HDM.gauge g gs)
      (TwoHDM.quarkTensor c v1 v2 type) (TwoHDM.leptonTensor c v1 v2 type))
      (let d1 := Spec.firstDoublet type c v1 p.L1 p.L3 p.L4 g gs
       let d2 := Spec.secondDoublet type c v2 p.L2 p.L3 p.L4 g gs
       ![d1, d1, d2, d2, d1, d1, d2, d2]) := by
  refine general_diagonal 12 9 _ (C2HDM.C80_c2hdm_tree_symmetric p) _
    (fun a i j => (C2HDM.C77_c2hdm_gauge_symmetric g gs a a i j).2) _ _ _ fun φ => ?_
  rw [raw_form 12 9 _ _ 0 _ _ (fun a b k => (TwoHDM.C78_2hdm_symmetric c v1 v2 type a b k).1)
    (fun a b k => (TwoHDM.C78_2hdm_symmetric c v1 v2 type a b k).2)]
  have hp : ∀ φ, polynomial (C2HDM.tree p) φ = twoDoubletReal p.u1 p.u2 ⟨p.RealMMix, p.Iu3⟩ p.L1 p.L2 p.L3
      p.L4 ⟨p.RL5, p.IL5⟩ (φ 0) (φ 1) (φ 4) (φ 5) (φ 2) (φ 3) (φ 6) (φ 7) := by
    intro φ
    rw [tree_polynomial φ (C2HDM.C74_c2hdm_potential p φ (fun _ => 0) true), TwoDoublets.phi1,
      TwoDoublets.phi2, twoDoublet_real_zero, Complex.ofReal_re]
  rw [quartic_trace _ (C2HDM.C80_c2hdm_tree_symmetric p) _ hp, twoDoublet_laplacian,
    twoDoublet_laplacian, twoDoublet_laplacian]
  rw [gaugeMatrix_two g gs _ 0 φ (fun a b i j => (C2HDM.C77_c2hdm_gauge_symmetric _ _ a b i j).1) _ _ _ _
    _ _ _ _ (fun W => C2HDM.C77_c2hdm_gauge _ _ W _), pauliGauge_trace]
  rw [quark_squared _ (fun a b k => (TwoHDM.C78_2hdm_symmetric c v1 v2 type a b k).1) φ _ _ _ _ _
    (fun ψ => TwoHDM.C78_2hdm_quarks c v1 v2 type ht ψ φ), trace_submatrix_equiv, quark_trace _ hV]
  rw [lepton_squared _ (fun a b k => (TwoHDM.C78_2hdm_symmetric c v1 v2 type a b k).2) φ _ _
    (fun ψ => TwoHDM.C78_2hdm_leptons c v1 v2 type ht ψ φ), trace_submatrix_equiv, lepton_trace]
  have key := fermion_sizes ht c v1 v2 p.L1 p.L2 p.L3 p.L4 g gs (TwoDoublets.phi1 φ)
    (TwoDoublets.phi2 φ)
  have s1 : size (TwoDoublets.phi1 φ) = (φ 0 ^ 2 + φ 1 ^ 2 + φ 4 ^ 2 + φ 5 ^ 2) / 2 :=
    size_doublet _ _ _ _
  have s2 : size (TwoDoublets.phi2 φ) = (φ 2 ^ 2 + φ 3 ^ 2 + φ 6 ^ 2 + φ 7 ^ 2) / 2 :=
    size_doublet _ _ _ _
  rw [s1, s2] at key
  rw [s2]
  simp only [Fin.sum_univ_eight, Matrix.cons_val, Matrix.cons_val_zero, Matrix.cons_val_one]
  linear_combination key

end Verif.Debye
