import Verif.Invariance.Nine

/-!
# The dark parity of the model CP in the Dark
-/

namespace Verif.Invariance

open Verif.Potential Verif.Potential.Spec Verif.Lagrangian Verif.Lagrangian.Spec Verif.Spectrum
  Verif.Yukawa Verif.Debye Matrix
open scoped BigOperators ComplexConjugate

theorem gaugeRotation_zero (a : Fin 4) (Φ : Fin 2 → ℂ) : gaugeRotation a 0 Φ = Φ := by
  funext k
  fin_cases k <;> simp [gaugeRotation]

/-- The parity as a linear map. -/
noncomputable def parityL : (Fin 9 → ℝ) →ₗ[ℝ] (Fin 9 → ℝ) where
  toFun φ k := CPintheDark.parity k * φ k
  map_add' x y := by funext k; simp [mul_add]
  map_smul' r x := by
    funext k
    simp only [Pi.smul_apply, smul_eq_mul, RingHom.id_apply]
    ring

theorem parity_sq (k : Fin 9) : CPintheDark.parity k ^ 2 = 1 := by
  fin_cases k <;> norm_num [CPintheDark.parity]

theorem parity_phi (φ : Fin 9 → ℝ) :
    CPintheDark.phi1 (parityL φ) = CPintheDark.phi1 φ ∧
      CPintheDark.phi2 (parityL φ) = -CPintheDark.phi2 φ ∧ parityL φ 8 = -φ 8 := by
  refine ⟨?_, ?_, ?_⟩
  · simp [parityL, CPintheDark.phi1, CPintheDark.parity]
  · funext k
    fin_cases k <;> simp [parityL, CPintheDark.phi2, CPintheDark.parity, doublet] <;> ring
  · simp [parityL, CPintheDark.parity]

theorem dagger_neg (Φ Ψ : Fin 2 → ℂ) :
    dagger (-Φ) Ψ = -dagger Φ Ψ ∧ dagger Φ (-Ψ) = -dagger Φ Ψ ∧ dagger (-Φ) (-Ψ) = dagger Φ Ψ := by
  refine ⟨?_, ?_, ?_⟩ <;> simp [dagger, add_comm]

theorem covariant_neg (g gs : ℝ) (W : Fin 4 → ℝ) (Φ : Fin 2 → ℂ) :
    covariant g gs W (-Φ) = -covariant g gs W Φ := by
  funext k
  fin_cases k <;> simp [covariant] <;> ring

theorem twoDoublet_neg (u1 u2 l1 l2 l3 l4 : ℝ) (l5 : ℂ) (Φ₁ Φ₂ : Fin 2 → ℂ) :
    twoDoublet u1 u2 0 l1 l2 l3 l4 l5 0 Φ₁ (-Φ₂) = twoDoublet u1 u2 0 l1 l2 l3 l4 l5 0 Φ₁ Φ₂ := by
  simp only [twoDoublet, (dagger_neg _ _).1, (dagger_neg _ _).2.1, neg_neg]
  simp

theorem parity_documented (m11 m22 mS : ℝ) (A : ℂ) (l1 l2 l3 l4 : ℝ) (l5 : ℂ) (l6 l7 l8 : ℝ)
    (φ : Fin 9 → ℝ) :
    CPintheDark.documented m11 m22 mS A l1 l2 l3 l4 l5 l6 l7 l8 (parityL φ) =
      CPintheDark.documented m11 m22 mS A l1 l2 l3 l4 l5 l6 l7 l8 φ := by
  obtain ⟨h1, h2, h8⟩ := parity_phi φ
  simp only [CPintheDark.documented, h1, h2, h8, twoDoublet_neg, (dagger_neg _ _).1,
    (dagger_neg _ _).2.1, neg_neg]
  push_cast
  simp only [plusCC, mul_neg, neg_mul, neg_neg, Even.neg_pow (by decide : Even 2),
    Even.neg_pow (by decide : Even 4)]

theorem dark_parity {S : Solver} (hS : S.Correct) (p : CPintheDark.Par ℝ) (g gs : ℝ) (c : Constants)
    (hV : c.ckm ∈ unitaryGroup (Fin 3) ℂ) (v : ℝ) (force : Bool) (D : Matrix (Fin 4) (Fin 4) ℝ)
    (hD : ∃ x y, D = diagonal ![x, x, x, y]) (scale : ℝ) (JB JF : Thermal) (T : ℝ) :
    CPintheDark.ParityInvariant fun φ =>
      v1Loop ((darkTensors p g gs c v force D).spectra S scale JB JF) φ T 0 := by
  obtain ⟨hD0, -⟩ := dark_equal p g gs c hV v force D
  obtain ⟨x, y, rfl⟩ := hD
  intro φ
  have hsq := fun a b k => (Yukawa.CPintheDark.C78_cpinthedark_symmetric c v a b k).1
  have hsl := fun a b k => (Yukawa.CPintheDark.C78_cpinthedark_symmetric c v a b k).2
  obtain ⟨h1, h2, h8⟩ := parity_phi φ
  have hp : ∀ (φ : Fin 9 → ℝ) (k : Fin 9), parityL φ k ^ 2 = φ k ^ 2 := by
    intro φ k
    show (CPintheDark.parity k * φ k) ^ 2 = _
    rw [mul_pow, parity_sq, one_mul]
  show v1Loop _ (parityL φ) T 0 = _
  refine loop_invariant hS _ hsq hsl scale JB JF _ _ T (fun T => ?_) (fun T => ?_) ?_ ?_
  · refine scalar_invariant _ (CPintheDark.C80_cpinthedark_tree_symmetric p) parityL (fun φ => ?_)
      (fun φ => ?_) _ hD0 (fun φ => ?_) _ T
    · rw [tree_polynomial _ (CPintheDark.C74_cpinthedark_potential p _ (fun _ => 0) true),
        tree_polynomial _ (CPintheDark.C74_cpinthedark_potential p _ (fun _ => 0) true),
        parity_documented]
    · simp only [hp]
    · simp only [hp]
  · refine gauge_two g gs (CPintheDark.gauge g gs) x y T _ _
      (fun a b i j => (CPintheDark.C77_cpinthedark_gauge_symmetric _ _ a b i j).1)
      (fun W => CPintheDark.C77_cpinthedark_gauge g gs W _) (a := 0) (θ := 0) fun W => ?_
    refine (CPintheDark.C77_cpinthedark_gauge g gs W _).trans ?_
    rw [h1, h2, covariant_neg, (dagger_neg _ _).2.2, gaugeRotation_zero, gaugeRotation_zero]
    rfl
  · refine darkQuark_charpoly _ hsq _ _ _ hV _ _
      (fun ψ => Yukawa.CPintheDark.C78_cpinthedark_quarks c v ψ _) (a := 0) (θ := 0) fun ψ => ?_
    refine (Yukawa.CPintheDark.C78_cpinthedark_quarks c v ψ _).trans ?_
    rw [h1, gaugeRotation_zero]
  · refine lepton_charpoly _ hsl _ _ _
      (fun ψ => Yukawa.CPintheDark.C78_cpinthedark_leptons c v ψ _) (a := 0) (θ := 0) fun ψ => ?_
    refine (Yukawa.CPintheDark.C78_cpinthedark_leptons c v ψ _).trans ?_
    rw [h1, gaugeRotation_zero]

end Verif.Invariance
