import Verif.Weinberg.Tree
import Verif.Invariance.Props

/-!
# The tensors of the models
-/

namespace Verif.Weinberg

open Verif.Potential Verif.Invariance Verif.Yukawa Verif.Lagrangian Verif.Lagrangian.Spec Matrix
open Spec (GaugePositive Lawful)
open scoped BigOperators ComplexConjugate

theorem dagger_self (Φ : Fin 2 → ℂ) : 0 ≤ (dagger Φ Φ).re := by
  rw [dagger, Complex.re_sum]
  refine Finset.sum_nonneg fun k _ => ?_
  rw [mul_comm, Complex.mul_conj, Complex.ofReal_re]
  exact Complex.normSq_nonneg _

theorem positive_one {n : Nat} {G : List Nat → ℝ} {Φ : (Fin 4 → ℝ) → (Fin n → ℝ) → Fin 2 → ℂ}
    (h : ∀ W φ, ((1 / 4 * ∑ a : Fin 4, ∑ b : Fin 4, ∑ i : Fin n, ∑ j : Fin n,
        G [(a : Nat), (b : Nat), (i : Nat), (j : Nat)] * (W a * (W b * (φ i * φ j))) : ℝ) : ℂ) =
      dagger (Φ W φ) (Φ W φ)) : GaugePositive n G := fun W φ => by
  have e := congrArg Complex.re (h W φ)
  rw [Complex.ofReal_re] at e
  have := dagger_self (Φ W φ)
  linarith

theorem positive_two {n : Nat} {G : List Nat → ℝ} {Φ Ψ : (Fin 4 → ℝ) → (Fin n → ℝ) → Fin 2 → ℂ}
    (h : ∀ W φ, ((1 / 4 * ∑ a : Fin 4, ∑ b : Fin 4, ∑ i : Fin n, ∑ j : Fin n,
        G [(a : Nat), (b : Nat), (i : Nat), (j : Nat)] * (W a * (W b * (φ i * φ j))) : ℝ) : ℂ) =
      dagger (Φ W φ) (Φ W φ) + dagger (Ψ W φ) (Ψ W φ)) : GaugePositive n G := fun W φ => by
  have e := congrArg Complex.re (h W φ)
  rw [Complex.ofReal_re, Complex.add_re] at e
  have h1 := dagger_self (Φ W φ)
  have h2 := dagger_self (Ψ W φ)
  linarith

theorem sm_lawful (p : SM.Par ℝ) (g gs : ℝ) (c : Constants) (v : ℝ) (force : Bool)
    (D : Matrix (Fin 4) (Fin 4) ℝ) : Lawful (smTensors p g gs c v force D) where
  scalar := SM.C80_sm_tree_symmetric p
  gauge := ⟨fun a b i j => (SM.C77_sm_gauge_symmetric g gs a b i j).1, fun a b i j => (SM.C77_sm_gauge_symmetric g gs a b i j).2⟩
  positive := positive_one fun W φ => SM.C77_sm_gauge g gs W φ
  quark := fun a b k => (Yukawa.SM.C78_sm_symmetric c v a b k).1
  lepton := fun a b k => (Yukawa.SM.C78_sm_symmetric c v a b k).2

theorem cxsm_lawful (p : CxSM.Par) (g gs : ℝ) (c : Constants) (v : ℝ) (force : Bool)
    (D : Matrix (Fin 4) (Fin 4) ℝ) : Lawful (cxsmTensors p g gs c v force D) where
  scalar := CxSM.C80_cxsm_tree_symmetric p
  gauge := ⟨fun a b i j => (CxSM.C77_cxsm_gauge_symmetric g gs a b i j).1, fun a b i j => (CxSM.C77_cxsm_gauge_symmetric g gs a b i j).2⟩
  positive := positive_one fun W φ => CxSM.C77_cxsm_gauge g gs W φ
  quark := fun a b k => (Yukawa.CxSM.C78_cxsm_symmetric c v a b k).1
  lepton := fun a b k => (Yukawa.CxSM.C78_cxsm_symmetric c v a b k).2

theorem r2hdm_lawful (p : R2HDM.Par ℝ) (g gs : ℝ) (c : Constants) (cosBeta sinBeta : ℝ) (type : Int) (force : Bool)
    (D : Matrix (Fin 4) (Fin 4) ℝ) : Lawful (r2hdmTensors p g gs c cosBeta sinBeta type force D) where
  scalar := R2HDM.C80_r2hdm_tree_symmetric p
  gauge := ⟨fun a b i j => (R2HDM.C77_r2hdm_gauge_symmetric g gs a b i j).1, fun a b i j => (R2HDM.C77_r2hdm_gauge_symmetric g gs a b i j).2⟩
  positive := positive_two fun W φ => R2HDM.C77_r2hdm_gauge g gs W φ
  quark := fun a b k => (TwoHDM.C78_2hdm_symmetric c _ _ type a b k).1
  lepton := fun a b k => (TwoHDM.C78_2hdm_symmetric c _ _ type a b k).2

theorem c2hdm_lawful (p : C2HDM.Par ℝ) (g gs : ℝ) (c : Constants) (cosBeta sinBeta : ℝ) (type : Int) (force : Bool)
    (D : Matrix (Fin 4) (Fin 4) ℝ) : Lawful (c2hdmTensors p g gs c cosBeta sinBeta type force D) where
  scalar := C2HDM.C80_c2hdm_tree_symmetric p
  gauge := ⟨fun a b i j => (C2HDM.C77_c2hdm_gauge_symmetric g gs a b i j).1, fun a b i j => (C2HDM.C77_c2hdm_gauge_symmetric g gs a b i j).2⟩
  positive := positive_two fun W φ => C2HDM.C77_c2hdm_gauge g gs W φ
  quark := fun a b k => (TwoHDM.C78_2hdm_symmetric c _ _ type a b k).1
  lepton := fun a b k => (TwoHDM.C78_2hdm_symmetric c _ _ type a b k).2

set_option maxRecDepth 4000 in
theorem n2hdm_lawful (p : N2HDM.Par ℝ) (g gs : ℝ) (c : Constants) (cosBeta sinBeta : ℝ) (type : Int) (force : Bool)
    (D : Matrix (Fin 4) (Fin 4) ℝ) : Lawful (n2hdmTensors p g gs c cosBeta sinBeta type force D) where
  scalar := N2HDM.C80_n2hdm_tree_symmetric p
  gauge := ⟨fun a b i j => (N2HDM.C77_n2hdm_gauge_symmetric g gs a b i j).1, fun a b i j => (N2HDM.C77_n2hdm_gauge_symmetric g gs a b i j).2⟩
  positive := positive_two fun W φ => N2HDM.C77_n2hdm_gauge g gs W φ
  quark := fun a b k => (TwoHDM.C78_n2hdm_symmetric c _ _ type a b k).1
  lepton := fun a b k => (TwoHDM.C78_n2hdm_symmetric c _ _ type a b k).2

theorem cpinthedark_lawful (p : CPintheDark.Par ℝ) (g gs : ℝ) (c : Constants) (v : ℝ) (force : Bool)
    (D : Matrix (Fin 4) (Fin 4) ℝ) : Lawful (darkTensors p g gs c v force D) where
  scalar := CPintheDark.C80_cpinthedark_tree_symmetric p
  gauge := ⟨fun a b i j => (CPintheDark.C77_cpinthedark_gauge_symmetric g gs a b i j).1, fun a b i j => (CPintheDark.C77_cpinthedark_gauge_symmetric g gs a b i j).2⟩
  positive := positive_two fun W φ => CPintheDark.C77_cpinthedark_gauge g gs W φ
  quark := fun a b k => (Yukawa.CPintheDark.C78_cpinthedark_symmetric c v a b k).1
  lepton := fun a b k => (Yukawa.CPintheDark.C78_cpinthedark_symmetric c v a b k).2

end Verif.Weinberg
