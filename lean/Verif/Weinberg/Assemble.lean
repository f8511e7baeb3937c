import Verif.Weinberg.Photon
import Mathlib.Algebra.Order.Chebyshev

/-!
# The derivatives of the whole potential
-/

namespace Verif.Weinberg

open Matrix Verif.Potential Verif.Invariance
open scoped BigOperators
open Lagrangian.Spec (Expansion)
open Spec (cw Regular Apart Clean Lawful)

variable {n m : Nat} {S : Solver} {X : Vectors} {T : Tensors n} {v : Fin n → ℝ}

/-! ### Masses -/

theorem root_real (hS : S.Correct) (M : Matrix (Fin m) (Fin m) ℝ) (h : M.IsHermitian) (i : Fin m) :
    nth (S.real M) i ∈ M.charpoly.roots := by
  have e : nth (S.real M) i = (h.eigenvalues ∘ Tuple.sort h.eigenvalues) i := by
    refine sorted_list _ _ (hS.real M h).1 ?_ i
    rw [(hS.real M h).2, h.roots_charpoly_eq_eigenvalues]
    rfl
  rw [e, h.roots_charpoly_eq_eigenvalues]
  exact Multiset.mem_map.2 ⟨_, by rw [Finset.mem_val]; exact Finset.mem_univ _, rfl⟩

theorem root_complex (hS : S.Correct) (M : Matrix (Fin m) (Fin m) ℂ) (h : M.IsHermitian) (i : Fin m) :
    ((nth (S.complex M) i : ℝ) : ℂ) ∈ M.charpoly.roots := by
  have e : nth (S.complex M) i = (h.eigenvalues ∘ Tuple.sort h.eigenvalues) i := by
    refine sorted_list _ _ (hS.complex M h).1 ?_ i
    refine Multiset.map_injective Complex.ofReal_injective ?_
    rw [Multiset.map_coe, (hS.complex M h).2, h.roots_charpoly_eq_eigenvalues, Multiset.map_map]
    rfl
  rw [e, h.roots_charpoly_eq_eigenvalues]
  exact Multiset.mem_map.2 ⟨_, by rw [Finset.mem_val]; exact Finset.mem_univ _, rfl⟩

theorem cutMass_eq {x : ℝ} (h : x = 0 ∨ 1 / 10 ^ 5 ≤ x) : cutMass x = x := by
  unfold cutMass
  rcases h with rfl | h
  · simp
  · rw [if_neg (not_lt.2 (h.trans (le_abs_self x)))]

theorem cutSmall_eq {x : ℝ} (h : x = 0 ∨ 1 / 10 ^ 10 ≤ |x|) : cutSmall x = x := by
  unfold cutSmall
  rcases h with rfl | h
  · simp
  · rw [if_neg (not_lt.2 h)]

theorem cutSmall_near (x : ℝ) : |cutSmall x - x| ≤ 1 / 10 ^ 10 := by
  unfold cutSmall
  split_ifs with h
  · rw [zero_sub, abs_neg]; exact h.le
  · rw [sub_self, abs_zero]; positivity

section

variable (hS : S.Correct) (hT : Lawful T) {τ : ℝ} (hτ : 0 < τ) (hm : Regular τ T v)
include hS hT hm

theorem above_scalar (i : Fin n) : Above τ (nth (S.real (massHiggs T.scalar v)) i) := by
  have h := root_real hS _ (hermitian_scalar _ hT.scalar v) i
  rw [massHiggs_eq] at h ⊢
  exact (hm.scalar _ h).imp id And.left

theorem mass_scalar (i : Fin n) :
    (physicalCouplings S X T v).massHiggs i = nth (S.real (massHiggs T.scalar v)) i := by
  have h := root_real hS _ (hermitian_scalar _ hT.scalar v) i
  refine cutMass_eq ?_
  rw [massHiggs_eq] at h ⊢
  exact (hm.scalar _ h).imp id And.right

theorem above_gauge (i : Fin 4) : Above τ (nth (S.real (massGauge T.gauge v)) i) := by
  have h := root_real hS _ (hermitian_gauge _ hT.gauge v) i
  rw [massGauge_eq] at h ⊢
  exact (hm.gauge _ h).imp id And.left

theorem mass_gauge (i : Fin 4) :
    (physicalCouplings S X T v).massGauge i = nth (S.real (massGauge T.gauge v)) i := by
  have h := root_real hS _ (hermitian_gauge _ hT.gauge v) i
  refine cutMass_eq ?_
  rw [massGauge_eq] at h ⊢
  exact (hm.gauge _ h).imp id And.right

theorem above_quark (i : Fin 12) : Above τ (nth (S.complex (massFermion 12 T.quark v)) i) := by
  have h := root_complex hS _ (hermitian_fermion 12 _ hT.quark v) i
  rw [massFermion_eq 12 _ hT.quark] at h ⊢
  exact (hm.quark _ h).imp (fun h => by exact_mod_cast h) fun h => by simpa using h

theorem above_lepton (i : Fin 9) : Above τ (nth (S.complex (massFermion 9 T.lepton v)) i) := by
  have h := root_complex hS _ (hermitian_fermion 9 _ hT.lepton v) i
  rw [massFermion_eq 9 _ hT.lepton] at h ⊢
  exact (hm.lepton _ h).imp (fun h => by exact_mod_cast h) fun h => by simpa using h

include hτ in
/-- No logarithm of a negative number. -/
theorem not_negative : ¬ (physicalCouplings S X T v).Negative := by
  rintro (⟨i, h⟩ | ⟨i, h⟩ | ⟨i, h⟩ | ⟨i, h⟩)
  · rw [mass_scalar hS hT hm] at h
    exact absurd ((above_scalar hS hT hm i).nonneg hτ) (not_le.2 h)
  · rw [mass_gauge hS hT hm] at h
    exact absurd ((above_gauge hS hT hm i).nonneg hτ) (not_le.2 h)
  · exact absurd ((above_quark hS hT hm i).nonneg hτ) (not_le.2 h)
  · exact absurd ((above_lepton hS hT hm i).nonneg hτ) (not_le.2 h)

end

/-! ### Rotations -/

section

variable (hX : X.Correct S) (hT : Lawful T) (hc : Clean X T v)
include hc

theorem higgsRot_eq (i j : Fin n) : higgsRot X T.scalar v i j = X.real (massHiggs T.scalar v) j i := by
  refine cutSmall_eq ?_
  rw [massHiggs_eq]
  exact hc.scalar j i

include hX hT in
theorem higgsRot_orthogonal : (higgsRot X T.scalar v)ᵀ * higgsRot X T.scalar v = 1 := by
  have h := (hX.real _ (hermitian_scalar _ hT.scalar v)).right
  rw [← h]
  ext i j
  rw [Matrix.mul_apply, Matrix.mul_apply]
  refine Finset.sum_congr rfl fun k _ => ?_
  rw [transpose_apply, higgsRot_eq hc, higgsRot_eq hc, star_apply, star_trivial]

include hT in
theorem quark_real (i j : Fin 12) : (X.complex (massFermion 12 T.quark v) i j).im = 0 := by
  rw [massFermion_eq 12 _ hT.quark]
  exact hc.quark i j

include hT in
theorem lepton_real (i j : Fin 9) : (X.complex (massFermion 9 T.lepton v) i j).im = 0 := by
  rw [massFermion_eq 9 _ hT.lepton]
  exact hc.lepton i j

end

theorem ofReal_re {z : ℂ} (h : z.im = 0) : ((z.re : ℝ) : ℂ) = z := by
  apply Complex.ext <;> simp [h]

theorem star_of_real {z : ℂ} (h : z.im = 0) : star z = z := by
  apply Complex.ext <;> simp [h]

/-! ### The sum of the species -/

theorem potential_eq (hS : S.Correct) (hT : Lawful T) (t scale : ℝ) (φ : Fin n → ℝ) :
    Spec.potential t scale T φ =
      (∑ i : Fin n, cw t scale (3 / 2) (nth (S.real (massHiggs T.scalar φ)) i)) +
      3 * (∑ i : Fin 4, cw t scale (5 / 6) (nth (S.real (massGauge T.gauge φ)) i)) +
      -6 * (∑ i : Fin 12, cw t scale (3 / 2) (nth (S.complex (massFermion 12 T.quark φ)) i)) +
      -2 * ∑ i : Fin 9, cw t scale (3 / 2) (nth (S.complex (massFermion 9 T.lepton φ)) i) := by
  rw [sum_real hS _ (hermitian_scalar _ hT.scalar φ), sum_real hS _ (hermitian_gauge _ hT.gauge φ),
    sum_complex hS _ (hermitian_fermion 12 _ hT.quark φ),
    sum_complex hS _ (hermitian_fermion 9 _ hT.lepton φ), massHiggs_eq, massGauge_eq,
    massFermion_eq 12 _ hT.quark, massFermion_eq 9 _ hT.lepton, Spec.potential]
  ring

section

variable (hS : S.Correct) (hX : X.Correct S) (hT : Lawful T) {τ scale : ℝ} (hτ : 0 < τ) (hs : 0 < scale)
  (hm : Regular τ T v) (hc : Clean X T v)
include hS hX hT hτ hs hm hc

/-- **The gradient.** -/
theorem gradient : ∃ H, Expansion (Spec.potential τ scale T) v
    (firstRaw (physicalCouplings S X T v) scale) H := by
  have hR := higgsRot_orthogonal hX hT hc
  have h1 := species_first (smooth_scalar T.scalar hT.scalar)
    (fun φ => hX.real _ (hermitian_scalar _ hT.scalar φ)) v hτ hs (3 / 2) (above_scalar hS hT hm)
    (A := higgsRot X T.scalar v) (fun p q => higgsRot_eq hc p q) (fun p q => star_trivial _) hR
  have h2 := species_first (smooth_gauge T.gauge hT.gauge)
    (fun φ => hX.real _ (hermitian_gauge _ hT.gauge φ)) v hτ hs (5 / 6) (above_gauge hS hT hm)
    (A := gaugeRot X T.gauge v) (fun p q => rfl) (fun p q => star_trivial _) hR
  have h3 := species_first (smooth_fermion 12 T.quark)
    (fun φ => hX.complex _ (hermitian_fermion 12 _ hT.quark φ)) v hτ hs (3 / 2) (above_quark hS hT hm)
    (A := fermionRot X 12 T.quark v) (fun p q => ofReal_re (quark_real hT hc q p))
    (fun p q => star_of_real (quark_real hT hc p q)) hR
  have h4 := species_first (smooth_fermion 9 T.lepton)
    (fun φ => hX.complex _ (hermitian_fermion 9 _ hT.lepton φ)) v hτ hs (3 / 2) (above_lepton hS hT hm)
    (A := fermionRot X 9 T.lepton v) (fun p q => ofReal_re (lepton_real hT hc q p))
    (fun p q => star_of_real (lepton_real hT hc p q)) hR
  refine ⟨_, (((h1.add (h2.smul 3)).add (h3.smul (-6))).add (h4.smul (-2))).congr ?_ (fun k => ?_)
    fun k l => rfl⟩
  · funext φ
    exact (potential_eq hS hT τ scale φ).symm
  · unfold firstRaw
    have e1 : (physicalCouplings S X T v).massHiggs = fun i : Fin n => nth (S.real (massHiggs T.scalar v)) i :=
      funext (mass_scalar hS hT hm)
    have e2 : (physicalCouplings S X T v).massGauge = fun i : Fin 4 => nth (S.real (massGauge T.gauge v)) i :=
      funext (mass_gauge hS hT hm)
    rw [e1, e2, Finset.mul_sum, Finset.mul_sum, Finset.mul_sum, Finset.mul_sum, Finset.mul_sum,
      Finset.mul_sum, Finset.mul_sum, ← Finset.sum_add_distrib, ← Finset.sum_add_distrib,
      ← Finset.sum_add_distrib, Finset.sum_mul]
    refine Finset.sum_congr rfl fun i _ => ?_
    have pi0 : Real.pi ≠ 0 := Real.pi_ne_zero
    unfold cCWcb cCWcbGB
    dsimp only [physicalCouplings, of_apply, RCLike.re_to_real, RCLike.re_to_complex]
    field_simp
    ring

variable (hd : Apart T v)
include hd

/-- **The Hesse matrix**, before small entries are cut off. -/
theorem hessian : Expansion (Spec.potential τ scale T) v
    (firstRaw (physicalCouplings S X T v) scale)
    (fun k l => (∑ i, ∑ j, higgsRot X T.scalar v i k * higgsRot X T.scalar v j l *
      storage (physicalCouplings S X T v) scale i j) * (1 / (16 * Real.pi * Real.pi))) := by
  have hR := higgsRot_orthogonal hX hT hc
  have h1 := species (smooth_scalar T.scalar hT.scalar)
    (fun φ => hX.real _ (hermitian_scalar _ hT.scalar φ)) v hτ hs (3 / 2) (above_scalar hS hT hm)
    (fun p q => by
      have hp := root_real hS _ (hermitian_scalar _ hT.scalar v) p
      have hq := root_real hS _ (hermitian_scalar _ hT.scalar v) q
      rw [massHiggs_eq] at hp hq ⊢
      rcases hd.scalar _ hp _ hq with h | h
      · exact Or.inl ⟨h, Or.inl rfl⟩
      · exact Or.inr (Or.inl h))
    (A := higgsRot X T.scalar v) (fun p q => higgsRot_eq hc p q) (fun p q => star_trivial _) hR
  have h2 := species (smooth_gauge T.gauge hT.gauge)
    (fun φ => hX.real _ (hermitian_gauge _ hT.gauge φ)) v hτ hs (5 / 6) (above_gauge hS hT hm)
    (fun p q => by
      have hp := root_real hS _ (hermitian_gauge _ hT.gauge v) p
      have hq := root_real hS _ (hermitian_gauge _ hT.gauge v) q
      rw [massGauge_eq] at hp hq
      rcases hd.gauge _ hp _ hq with h | h
      · rw [← massGauge_eq] at h
        by_cases h0 : nth (S.real (massGauge T.gauge v)) p = 0
        · exact Or.inr (Or.inr fun k => massless_coupling hT.gauge hT.positive v
            (hX.real _ (hermitian_gauge _ hT.gauge v)) p q h0 (h ▸ h0) k)
        · exact Or.inl ⟨h, Or.inr h0⟩
      · rw [← massGauge_eq] at h
        exact Or.inr (Or.inl h))
    (A := gaugeRot X T.gauge v) (fun p q => rfl) (fun p q => star_trivial _) hR
  have h3 := species (smooth_fermion 12 T.quark)
    (fun φ => hX.complex _ (hermitian_fermion 12 _ hT.quark φ)) v hτ hs (3 / 2) (above_quark hS hT hm)
    (fun p q => by
      have hp := root_complex hS _ (hermitian_fermion 12 _ hT.quark v) p
      have hq := root_complex hS _ (hermitian_fermion 12 _ hT.quark v) q
      rw [massFermion_eq 12 _ hT.quark] at hp hq ⊢
      rcases hd.quark _ hp _ hq with h | h
      · exact Or.inl ⟨by exact_mod_cast h, Or.inl rfl⟩
      · rw [← Complex.ofReal_sub, Complex.norm_real, Real.norm_eq_abs] at h
        exact Or.inr (Or.inl h))
    (A := fermionRot X 12 T.quark v) (fun p q => ofReal_re (quark_real hT hc q p))
    (fun p q => star_of_real (quark_real hT hc p q)) hR
  have h4 := species (smooth_fermion 9 T.lepton)
    (fun φ => hX.complex _ (hermitian_fermion 9 _ hT.lepton φ)) v hτ hs (3 / 2) (above_lepton hS hT hm)
    (fun p q => by
      have hp := root_complex hS _ (hermitian_fermion 9 _ hT.lepton v) p
      have hq := root_complex hS _ (hermitian_fermion 9 _ hT.lepton v) q
      rw [massFermion_eq 9 _ hT.lepton] at hp hq ⊢
      rcases hd.lepton _ hp _ hq with h | h
      · exact Or.inl ⟨by exact_mod_cast h, Or.inl rfl⟩
      · rw [← Complex.ofReal_sub, Complex.norm_real, Real.norm_eq_abs] at h
        exact Or.inr (Or.inl h))
    (A := fermionRot X 9 T.lepton v) (fun p q => ofReal_re (lepton_real hT hc q p))
    (fun p q => star_of_real (lepton_real hT hc p q)) hR
  have e1 : (physicalCouplings S X T v).massHiggs = fun i : Fin n => nth (S.real (massHiggs T.scalar v)) i :=
    funext (mass_scalar hS hT hm)
  have e2 : (physicalCouplings S X T v).massGauge = fun i : Fin 4 => nth (S.real (massGauge T.gauge v)) i :=
    funext (mass_gauge hS hT hm)
  have pi0 : Real.pi ≠ 0 := Real.pi_ne_zero
  refine (((h1.add (h2.smul 3)).add (h3.smul (-6))).add (h4.smul (-2))).congr ?_ (fun k => ?_)
    fun k l => ?_
  · funext φ
    exact (potential_eq hS hT τ scale φ).symm
  · unfold firstRaw
    rw [e1, e2, Finset.mul_sum, Finset.mul_sum, Finset.mul_sum, Finset.mul_sum, Finset.mul_sum,
      Finset.mul_sum, Finset.mul_sum, ← Finset.sum_add_distrib, ← Finset.sum_add_distrib,
      ← Finset.sum_add_distrib, Finset.sum_mul]
    refine Finset.sum_congr rfl fun i _ => ?_
    unfold cCWcb cCWcbGB
    dsimp only [physicalCouplings, of_apply, RCLike.re_to_real, RCLike.re_to_complex]
    field_simp
    ring
  · unfold storage
    have hadd : ∀ A B C D : Fin n → Fin n → ℝ,
        1 / (32 * Real.pi ^ 2) * (∑ i, ∑ j, A i j) + 3 * (1 / (32 * Real.pi ^ 2) * ∑ i, ∑ j, B i j) +
          -6 * (1 / (32 * Real.pi ^ 2) * ∑ i, ∑ j, C i j) + -2 * (1 / (32 * Real.pi ^ 2) * ∑ i, ∑ j, D i j) =
        (∑ i, ∑ j, (1 / 2 * A i j + 3 / 2 * B i j + -3 * C i j + -1 * D i j)) *
          (1 / (16 * Real.pi * Real.pi)) := fun A B C D => by
      simp only [Finset.sum_add_distrib, ← Finset.mul_sum]
      field_simp
      ring
    rw [e1, e2, hadd]
    congr 1
    refine Finset.sum_congr rfl fun i _ => Finset.sum_congr rfl fun j _ => ?_
    unfold cCWcb cCWcbGB
    dsimp only [physicalCouplings, of_apply, RCLike.re_to_real, RCLike.re_to_complex]
    ring

end

end Verif.Weinberg
