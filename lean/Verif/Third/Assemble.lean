import Verif.Third.Species
import Verif.Weinberg.Tree

/-!
# The third derivatives of the whole potential
-/

namespace Verif.Weinberg

open Matrix Verif.Potential Verif.Invariance Filter Topology
open scoped BigOperators
open Lagrangian.Spec (Expansion)
open Spec (cw Regular Apart Clean Lawful ThirdDerivatives)
open Verif.Potential.Spec (Symmetric polynomial)

variable {n m : Nat} {S : Solver} {X : Vectors} {T : Tensors n} {v : Fin n → ℝ}

section

variable (hS : S.Correct) (hT : Lawful T) (hd : Apart T v)
include hS hT hd

theorem told_scalar (p q : Fin n) :
    Told (nth (S.real (massHiggs T.scalar v)) p) (nth (S.real (massHiggs T.scalar v)) q) := by
  have hp := root_real hS _ (hermitian_scalar _ hT.scalar v) p
  have hq := root_real hS _ (hermitian_scalar _ hT.scalar v) q
  rw [massHiggs_eq] at hp hq ⊢
  exact hd.scalar _ hp _ hq

theorem told_gauge (p q : Fin 4) :
    Told (nth (S.real (massGauge T.gauge v)) p) (nth (S.real (massGauge T.gauge v)) q) := by
  have hp := root_real hS _ (hermitian_gauge _ hT.gauge v) p
  have hq := root_real hS _ (hermitian_gauge _ hT.gauge v) q
  rw [massGauge_eq] at hp hq ⊢
  exact hd.gauge _ hp _ hq

theorem told_quark (p q : Fin 12) :
    Told (nth (S.complex (massFermion 12 T.quark v)) p) (nth (S.complex (massFermion 12 T.quark v)) q) := by
  have hp := root_complex hS _ (hermitian_fermion 12 _ hT.quark v) p
  have hq := root_complex hS _ (hermitian_fermion 12 _ hT.quark v) q
  rw [massFermion_eq 12 _ hT.quark] at hp hq ⊢
  rcases hd.quark _ hp _ hq with h | h
  · exact Or.inl (by exact_mod_cast h)
  · rw [← Complex.ofReal_sub, Complex.norm_real, Real.norm_eq_abs] at h
    exact Or.inr h

theorem told_lepton (p q : Fin 9) :
    Told (nth (S.complex (massFermion 9 T.lepton v)) p) (nth (S.complex (massFermion 9 T.lepton v)) q) := by
  have hp := root_complex hS _ (hermitian_fermion 9 _ hT.lepton v) p
  have hq := root_complex hS _ (hermitian_fermion 9 _ hT.lepton v) q
  rw [massFermion_eq 9 _ hT.lepton] at hp hq ⊢
  rcases hd.lepton _ hp _ hq with h | h
  · exact Or.inl (by exact_mod_cast h)
  · rw [← Complex.ofReal_sub, Complex.norm_real, Real.norm_eq_abs] at h
    exact Or.inr h

end

section

variable (hS : S.Correct) (hT : Lawful T) {τ scale : ℝ} (hτ : 1 / 10 ^ 8 ≤ τ) (hm : Regular τ T v) (hd : Apart T v)
include hS hT hτ hm hd

/-- The loop function of three masses does not throw. -/
theorem not_throws : ¬ (physicalCouplings S X T v).Throws scale := by
  rintro (⟨a, b, c, h⟩ | ⟨a, b, c, h⟩ | ⟨a, b, c, h⟩ | ⟨a, b, c, h⟩)
  · rw [mass_scalar hS hT hm, mass_scalar hS hT hm, mass_scalar hS hT hm] at h
    exact fbaseTri_ok hτ (above_scalar hS hT hm a) (above_scalar hS hT hm b) (above_scalar hS hT hm c)
      (told_scalar hS hT hd a b) (told_scalar hS hT hd a c) (told_scalar hS hT hd b c) scale h
  · rw [mass_gauge hS hT hm, mass_gauge hS hT hm, mass_gauge hS hT hm] at h
    exact fbaseTri_ok hτ (above_gauge hS hT hm a) (above_gauge hS hT hm b) (above_gauge hS hT hm c)
      (told_gauge hS hT hd a b) (told_gauge hS hT hd a c) (told_gauge hS hT hd b c) scale h
  · exact fbaseTri_ok hτ (above_quark hS hT hm a) (above_quark hS hT hm b) (above_quark hS hT hm c)
      (told_quark hS hT hd a b) (told_quark hS hT hd a c) (told_quark hS hT hd b c) scale h
  · exact fbaseTri_ok hτ (above_lepton hS hT hm a) (above_lepton hS hT hm b) (above_lepton hS hT hm c)
      (told_lepton hS hT hd a b) (told_lepton hS hT hd a c) (told_lepton hS hT hd b c) scale h

variable (hX : X.Correct S) (hc : Clean X T v)
include hX hc

/-- **The third derivatives**, before small entries are cut off. -/
theorem third_derivatives : ThirdDerivatives (Spec.potential τ scale T) v
    (thirdRaw (physicalCouplings S X T v) scale) := by
  have hR := higgsRot_orthogonal hX hT hc
  have h1 := species_third (smooth_scalar T.scalar hT.scalar)
    (fun k l => by ext a b; simp only [of_apply]; exact hT.scalar.s4c a b k l)
    (fun φ => hX.real _ (hermitian_scalar _ hT.scalar φ)) v hτ scale (3 / 2) (above_scalar hS hT hm)
    (told_scalar hS hT hd) (fun p q => Or.inl rfl)
    (A := higgsRot X T.scalar v) (fun p q => higgsRot_eq hc p q) (fun p q => star_trivial _) hR
  have h2 := species_third (smooth_gauge T.gauge hT.gauge)
    (fun k l => by ext a b; simp only [of_apply]; exact hT.gauge.scalar a b k l)
    (fun φ => hX.real _ (hermitian_gauge _ hT.gauge φ)) v hτ scale (5 / 6) (above_gauge hS hT hm)
    (told_gauge hS hT hd) (fun p q => by
      by_cases h0 : nth (S.real (massGauge T.gauge v)) p = 0 ∧ nth (S.real (massGauge T.gauge v)) q = 0
      · exact Or.inr (Or.inr fun k => massless_coupling hT.gauge hT.positive v
            (hX.real _ (hermitian_gauge _ hT.gauge v)) p q h0.1 h0.2 k)
      · exact Or.inr (Or.inl h0))
    (A := gaugeRot X T.gauge v) (fun p q => rfl) (fun p q => star_trivial _) hR
  have h3 := species_third (smooth_fermion 12 T.quark)
    (fun k l => by ext a b; simp only [of_apply, lambdaFermion4, add_comm])
    (fun φ => hX.complex _ (hermitian_fermion 12 _ hT.quark φ)) v hτ scale (3 / 2) (above_quark hS hT hm)
    (told_quark hS hT hd) (fun p q => Or.inl rfl)
    (A := fermionRot X 12 T.quark v) (fun p q => ofReal_re (quark_real hT hc q p))
    (fun p q => star_of_real (quark_real hT hc p q)) hR
  have h4 := species_third (smooth_fermion 9 T.lepton)
    (fun k l => by ext a b; simp only [of_apply, lambdaFermion4, add_comm])
    (fun φ => hX.complex _ (hermitian_fermion 9 _ hT.lepton φ)) v hτ scale (3 / 2) (above_lepton hS hT hm)
    (told_lepton hS hT hd) (fun p q => Or.inl rfl)
    (A := fermionRot X 9 T.lepton v) (fun p q => ofReal_re (lepton_real hT hc q p))
    (fun p q => star_of_real (lepton_real hT hc p q)) hR
  have e1 : (physicalCouplings S X T v).massHiggs = fun i : Fin n => nth (S.real (massHiggs T.scalar v)) i :=
    funext (mass_scalar hS hT hm)
  have e2 : (physicalCouplings S X T v).massGauge = fun i : Fin 4 => nth (S.real (massGauge T.gauge v)) i :=
    funext (mass_gauge hS hT hm)
  have pi0 : Real.pi ≠ 0 := Real.pi_ne_zero
  refine (((h1.add (h2.smul 3)).add (h3.smul (-6))).add (h4.smul (-2))).congr ?_ fun l k r => ?_
  · funext φ
    exact (potential_eq hS hT τ scale φ).symm
  · unfold thirdRaw thirdStorage
    have hadd : ∀ A B C D : Fin n → Fin n → Fin n → ℝ,
        1 / (32 * Real.pi ^ 2) * (∑ i, ∑ j, ∑ q, A i j q) + 3 * (1 / (32 * Real.pi ^ 2) * ∑ i, ∑ j, ∑ q, B i j q) +
          -6 * (1 / (32 * Real.pi ^ 2) * ∑ i, ∑ j, ∑ q, C i j q) +
          -2 * (1 / (32 * Real.pi ^ 2) * ∑ i, ∑ j, ∑ q, D i j q) =
        (∑ i, ∑ j, ∑ q, (1 / 2 * A i j q + 3 / 2 * B i j q + -3 * C i j q + -1 * D i j q)) *
          (1 / (16 * Real.pi * Real.pi)) := fun A B C D => by
      simp only [Finset.sum_add_distrib, ← Finset.mul_sum]
      field_simp
      ring
    rw [e1, e2, hadd]
    congr 1
    refine Finset.sum_congr rfl fun i _ => Finset.sum_congr rfl fun j _ => Finset.sum_congr rfl fun q _ => ?_
    have hre : ∀ (a b : ℝ) (x y : ℂ), (((a : ℝ) : ℂ) + ((b : ℝ) : ℂ) + -1 * x + -3 * y).re =
        a + b + -1 * x.re + -3 * y.re := fun a b x y => by simp
    rw [hre]
    unfold cCWcb cCWcbGB
    dsimp only [physicalCouplings, of_apply, RCLike.re_to_real, RCLike.re_to_complex]
    ring

end

/-- The third derivatives of the polynomial of symmetric tensors. -/
theorem third_polynomial (c : Curv n ℝ) (hc : Symmetric c) (v : Fin n → ℝ) :
    ThirdDerivatives (polynomial c) v (lambdaHiggs3 c v) := by
  refine third_of_grad (N := fun φ => grad c φ) (H := fun φ => hessianCT c φ)
    (Eventually.of_forall fun φ => expansion_polynomial c hc φ) fun k l => ?_
  exact (smooth_scalar c hc).first v k l

end Verif.Weinberg
