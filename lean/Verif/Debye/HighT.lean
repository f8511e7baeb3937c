import Verif.Debye.Assemble

/-!
# The thermal masses are the leading term of the high-temperature expansion
-/

namespace Verif.Debye

open Verif.Potential Verif.Potential.Spec Verif.Lagrangian Verif.Spectrum Verif.Yukawa Matrix
open scoped BigOperators ComplexConjugate

variable {n : Nat}

/-- The coefficient of `T²` in the high-temperature expansion of the one-loop potential: `1/24` of the
squared masses of the scalars, three times those of the gauge bosons, three times (colour) those of
the quarks and those of the leptons, where each two-component fermion counts once. -/
noncomputable def Spec.highTemperature {nQ nL : Nat} (S : Fin n → Fin n → ℝ)
    (V : Matrix (Fin 4) (Fin 4) ℝ) (Q : Matrix (Fin nQ) (Fin nQ) ℂ)
    (L : Matrix (Fin nL) (Fin nL) ℂ) : ℝ :=
  1 / 24 * ((∑ k, S k k) + 3 * V.trace + 3 * Q.trace.re + L.trace.re)

/-- For every model with tensors that do not depend on the order of the indices: the coefficient of
`T²` of the high-temperature expansion, calculated from the mass matrices of the program at zero
temperature, is a quadratic polynomial in the fields, and the matrix of its second derivatives is the
matrix of the thermal masses before small values are removed. -/
theorem C81_high_temperature (nQ nL : Nat) (c : Curv n ℝ) (hc : Symmetric c) (G : List Nat → ℝ)
    (hG : ∀ (a : Fin 4) (i j : Fin n), G [(a : Nat), (a : Nat), (i : Nat), (j : Nat)] =
      G [(a : Nat), (a : Nat), (j : Nat), (i : Nat)])
    (Q L : List Nat → ℂ) (hQ : ∀ a b k : Nat, Q [a, b, k] = Q [b, a, k])
    (hL : ∀ a b k : Nat, L [a, b, k] = L [b, a, k]) (d : Fin n → Fin n → ℝ)
    (D : Matrix (Fin 4) (Fin 4) ℝ) :
    ∃ (A : Fin n → Fin n → ℝ) (s0 : ℝ) (s1 : Fin n → ℝ),
      (∀ i j, A i j = A j i) ∧
      (∀ φ : Fin n → ℝ, ∃ M, higgsMassMatrix c d φ 0 0 = .ok M ∧
        Spec.highTemperature M (gaugeMatrix G D 0 φ)
          (squaredMatrix zeroTensor Q φ : Matrix (Fin nQ) (Fin nQ) ℂ)
          (squaredMatrix zeroTensor L φ : Matrix (Fin nL) (Fin nL) ℂ) =
            s0 + (∑ i, s1 i * φ i) + 1 / 2 * ∑ i, ∑ j, A i j * (φ i * φ j)) ∧
      ∀ i j, Spec.Rounded (A i j) (higgsGeneral 4 nQ nL c G Q L i j) := by
  refine ⟨higgsRaw 4 nQ nL c G Q L, 1 / 24 * ∑ k, c.L2 k k, fun i => 1 / 24 * ∑ k, c.L3 k k i,
    raw_symm nQ nL c hc G hG Q L, fun φ => ⟨mass0 c d φ 0, by simp [higgsMassMatrix], ?_⟩,
    fun i j => ?_⟩
  · rw [raw_form nQ nL c G D Q L hQ hL φ]
    unfold Spec.highTemperature
    have e : ∀ k, mass0 c d φ 0 k k = c.L2 k k + (∑ i, c.L3 k k i * φ i) +
        1 / 2 * ∑ i, ∑ j, c.L4 i j k k * (φ i * φ j) := by
      intro k
      have s : ∀ i j, c.L4 i j k k = c.L4 k k i j := by
        intro i j
        rw [hc.s4b i j k k, hc.s4a i k j k, hc.s4c k i j k, hc.s4b k i k j]
      simp only [mass0, le_refl, if_true, massUpper, ne_eq, not_true_eq_false, if_false, add_zero]
      rw [Finset.sum_add_distrib, Finset.mul_sum, add_assoc]
      congr 2
      refine Finset.sum_congr rfl fun i _ => ?_
      rw [Finset.mul_sum]
      exact Finset.sum_congr rfl fun j _ => by rw [s i j]; ring
    simp only [e, Finset.sum_add_distrib]
    have e3 : ∑ k, ∑ i, c.L3 k k i * φ i = ∑ i, (∑ k, c.L3 k k i) * φ i := by
      rw [Finset.sum_comm]
      exact Finset.sum_congr rfl fun i _ => by rw [Finset.sum_mul]
    have e4 : ∑ k, 1 / 2 * ∑ i, ∑ j, c.L4 i j k k * (φ i * φ j) =
        1 / 2 * ∑ i, ∑ j, (∑ k, c.L4 i j k k) * (φ i * φ j) := by
      rw [← Finset.mul_sum]
      congr 1
      simp only [Finset.sum_mul]
      rw [Finset.sum_comm]
      exact Finset.sum_congr rfl fun i _ => Finset.sum_comm
    have e5 : ∑ i, 1 / 24 * (∑ k, c.L3 k k i) * φ i = 1 / 24 * ∑ i, (∑ k, c.L3 k k i) * φ i := by
      rw [Finset.mul_sum]
      exact Finset.sum_congr rfl fun i _ => by ring
    rw [e3, e4, e5]
    ring
  · unfold higgsGeneral
    split_ifs
    · exact clip_rounded _
    · rw [raw_symm nQ nL c hc G hG Q L i j]
      exact clip_rounded _

end Verif.Debye
