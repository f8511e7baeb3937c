import Verif.Third.Interpolate

/-!
# First-order expansion of functions of two eigenvalues between eigenvectors
-/

namespace Verif.Weinberg

open Matrix Filter Topology
open scoped BigOperators

variable {𝕜 : Type} [RCLike 𝕜] {m : Nat}

/-- The weights of a function of two eigenvalues `a` with the eigenvectors `U` between four vectors of `V`. -/
noncomputable def weigh (S : ℝ → ℝ → ℝ) (U V : Matrix (Fin m) (Fin m) 𝕜) (a : Fin m → ℝ) (k p q j : Fin m) : 𝕜 :=
  ∑ i, ∑ i', (S (a i) (a i') : 𝕜) * ((star ((star U * V) i k) * (star U * V) i p) *
    (star ((star U * V) i' q) * (star U * V) i' j))

section

variable {A B U V : Matrix (Fin m) (Fin m) 𝕜} {a b : Fin m → ℝ}

theorem Diag.weigh_remainder (hA : Diag A U a) (hB : Diag B V b) (S : ℝ → ℝ → ℝ) (σ1 σ2 : ℝ) (k p q j : Fin m) :
    weigh S U V a k p q j - (if k = p then 1 else 0) * (if q = j then 1 else 0) * (S (b p) (b j) : 𝕜) -
        (if q = j then 1 else 0) * (σ1 : 𝕜) * (star V * (A - B) * V) k p -
        (if k = p then 1 else 0) * (σ2 : 𝕜) * (star V * (A - B) * V) q j =
      ∑ i, ∑ i', ((S (a i) (a i') - S (b p) (b j) - σ1 * (a i - b p) - σ2 * (a i' - b j) : ℝ) : 𝕜) *
        ((star ((star U * V) i k) * (star U * V) i p) * (star ((star U * V) i' q) * (star U * V) i' j)) := by
  rw [← overlap hA.right hB.left k p, ← overlap hA.right hB.left q j, hA.entry_right hB k p, hA.entry_right hB q j]
  set P : Fin m → 𝕜 := fun i => star ((star U * V) i k) * (star U * V) i p
  set Q : Fin m → 𝕜 := fun i => star ((star U * V) i q) * (star U * V) i j
  have e1 : (∑ i, P i) * (∑ i, Q i) * (S (b p) (b j) : 𝕜) = ∑ i, ∑ i', (S (b p) (b j) : 𝕜) * (P i * Q i') := by
    rw [Finset.sum_mul_sum, Finset.sum_mul]
    refine Finset.sum_congr rfl fun i _ => ?_
    rw [Finset.sum_mul]
    exact Finset.sum_congr rfl fun i' _ => by ring
  have e2 : (∑ i, Q i) * (σ1 : 𝕜) * (∑ i, ((a i - b p : ℝ) : 𝕜) * P i) =
      ∑ i, ∑ i', (σ1 : 𝕜) * ((a i - b p : ℝ) : 𝕜) * (P i * Q i') := by
    rw [mul_comm, Finset.sum_mul]
    refine Finset.sum_congr rfl fun i _ => ?_
    rw [Finset.sum_mul, Finset.mul_sum]
    exact Finset.sum_congr rfl fun i' _ => by ring
  have e3 : (∑ i, P i) * (σ2 : 𝕜) * (∑ i, ((a i - b j : ℝ) : 𝕜) * Q i) =
      ∑ i, ∑ i', (σ2 : 𝕜) * ((a i' - b j : ℝ) : 𝕜) * (P i * Q i') := by
    rw [Finset.sum_mul, Finset.sum_mul]
    refine Finset.sum_congr rfl fun i _ => ?_
    rw [Finset.mul_sum]
    exact Finset.sum_congr rfl fun i' _ => by ring
  have hw : weigh S U V a k p q j = ∑ i, ∑ i', (S (a i) (a i') : 𝕜) * (P i * Q i') := rfl
  rw [hw]
  refine Eq.trans (congrArg₂ (· - ·) (congrArg₂ (· - ·) (congrArg₂ (· - ·) rfl e1) e2) e3) ?_
  rw [← Finset.sum_sub_distrib, ← Finset.sum_sub_distrib, ← Finset.sum_sub_distrib]
  refine Finset.sum_congr rfl fun i _ => ?_
  rw [← Finset.sum_sub_distrib, ← Finset.sum_sub_distrib, ← Finset.sum_sub_distrib]
  refine Finset.sum_congr rfl fun i' _ => ?_
  simp only [P, Q]
  push_cast
  ring

end

theorem weights {r e C d w1 w2 w3 w4 X Xk Y Yq : ℝ} (n1 : 0 ≤ w1) (n2 : 0 ≤ w2) (n3 : 0 ≤ w3) (n4 : 0 ≤ w4)
    (z1 : w1 ≤ 1) (z2 : w2 ≤ 1) (z3 : w3 ≤ 1) (z4 : w4 ≤ 1) (hXk : 0 ≤ Xk) (hX : 0 ≤ X) (hYq : 0 ≤ Yq) (hY : 0 ≤ Y)
    (m1 : w1 * Xk ≤ d) (m2 : w2 * X ≤ d) (m3 : w3 * Yq ≤ d) (m4 : w4 * Y ≤ d) (he : 0 ≤ e) (hC : 0 ≤ C)
    (hr : r ≤ e * (X + Y) + C * (X * Xk + Y * Yq + X * Y)) :
    r * (w1 * w2 * (w3 * w4)) ≤ (2 * e + 3 * C * d) * d := by
  have hd : 0 ≤ d := le_trans (mul_nonneg n1 hXk) m1
  have a1 : (w2 * X) * (w1 * (w3 * w4)) ≤ d * 1 :=
    mul_le_mul m2 (mul_le_one₀ z1 (mul_nonneg n3 n4) (mul_le_one₀ z3 n4 z4)) (by positivity) hd
  have a2 : (w4 * Y) * (w1 * (w2 * w3)) ≤ d * 1 :=
    mul_le_mul m4 (mul_le_one₀ z1 (mul_nonneg n2 n3) (mul_le_one₀ z2 n3 z3)) (by positivity) hd
  have a3 : ((w2 * X) * (w1 * Xk)) * (w3 * w4) ≤ (d * d) * 1 :=
    mul_le_mul (mul_le_mul m2 m1 (by positivity) hd) (mul_le_one₀ z3 n4 z4) (by positivity) (by positivity)
  have a4 : ((w4 * Y) * (w3 * Yq)) * (w1 * w2) ≤ (d * d) * 1 :=
    mul_le_mul (mul_le_mul m4 m3 (by positivity) hd) (mul_le_one₀ z1 n2 z2) (by positivity) (by positivity)
  have a5 : ((w2 * X) * (w4 * Y)) * (w1 * w3) ≤ (d * d) * 1 :=
    mul_le_mul (mul_le_mul m2 m4 (by positivity) hd) (mul_le_one₀ z1 n3 z3) (by positivity) (by positivity)
  calc r * (w1 * w2 * (w3 * w4)) ≤ (e * (X + Y) + C * (X * Xk + Y * Yq + X * Y)) * (w1 * w2 * (w3 * w4)) :=
        mul_le_mul_of_nonneg_right hr (by positivity)
    _ = e * ((w2 * X) * (w1 * (w3 * w4)) + (w4 * Y) * (w1 * (w2 * w3))) + C * (((w2 * X) * (w1 * Xk)) * (w3 * w4) +
          ((w4 * Y) * (w3 * Yq)) * (w1 * w2) + ((w2 * X) * (w4 * Y)) * (w1 * w3)) := by ring
    _ ≤ e * (d * 1 + d * 1) + C * ((d * d) * 1 + (d * d) * 1 + (d * d) * 1) :=
        add_le_add (mul_le_mul_of_nonneg_left (add_le_add a1 a2) he)
          (mul_le_mul_of_nonneg_left (add_le_add (add_le_add a3 a4) a5) hC)
    _ = _ := by ring

/-- The weights are differentiable. -/
theorem weigh_estimate {B V : Matrix (Fin m) (Fin m) 𝕜} {b : Fin m → ℝ} (hB : Diag B V b) {S S₁ S₂ : ℝ → ℝ → ℝ}
    (hS : ∀ s t, Diff2 S (b s) (b t) (S₁ (b s) (b t)) (S₂ (b s) (b t))) (k p q j : Fin m) {ε : ℝ} (hε : 0 < ε) :
    ∃ δ, 0 < δ ∧ ∀ (A U : Matrix (Fin m) (Fin m) 𝕜) (a : Fin m → ℝ), Diag A U a → √(frob (A - B)) < δ →
      ‖weigh S U V a k p q j - (if k = p then 1 else 0) * (if q = j then 1 else 0) * (S (b p) (b j) : 𝕜) -
        (if q = j then 1 else 0) * (side1 S S₁ (b k) (b p) (b j) : 𝕜) * (star V * (A - B) * V) k p -
        (if k = p then 1 else 0) * (side2 S S₂ (b p) (b q) (b j) : 𝕜) * (star V * (A - B) * V) q j‖ ≤
      ε * √(frob (A - B)) := by
  set s : ℝ := (m : ℝ) * m + 1
  have hs : 0 < s := by positivity
  have hε' : 0 < ε / (4 * s) := by positivity
  obtain ⟨η, hη, C, hC, hr⟩ := interpolate b hS hε'
  refine ⟨min η (ε / (6 * s * (C + 1))), lt_min hη (by positivity), fun A U a hA hd => ?_⟩
  rw [hA.weigh_remainder hB]
  set d := √(frob (A - B)) with hddef
  have hd0 : 0 ≤ d := Real.sqrt_nonneg _
  have hd1 : d < η := hd.trans_le (min_le_left _ _)
  have hd2 : d ≤ ε / (6 * s * (C + 1)) := hd.le.trans (min_le_right _ _)
  have term : ∀ i i', ‖((S (a i) (a i') - S (b p) (b j) - side1 S S₁ (b k) (b p) (b j) * (a i - b p) -
        side2 S S₂ (b p) (b q) (b j) * (a i' - b j) : ℝ) : 𝕜) *
        ((star ((star U * V) i k) * (star U * V) i p) * (star ((star U * V) i' q) * (star U * V) i' j))‖ ≤
      (ε / (2 * s) + 3 * C * d) * d := fun i i' => by
    have z1 := hA.norm_le_one hB i k
    have z2 := hA.norm_le_one hB i p
    have z3 := hA.norm_le_one hB i' q
    have z4 := hA.norm_le_one hB i' j
    have m1 := hA.moved hB i k
    have m2 := hA.moved hB i p
    have m3 := hA.moved hB i' q
    have m4 := hA.moved hB i' j
    rw [← hddef] at m1 m2 m3 m4
    rw [norm_mul, norm_mul, norm_mul, norm_mul, norm_star, norm_star, RCLike.norm_ofReal]
    obtain ⟨u, hu⟩ := hA.near hB i
    obtain ⟨u', hu'⟩ := hA.near hB i'
    have hu1 : |a i - b u| < η := lt_of_le_of_lt (Real.le_sqrt_of_sq_le (by rw [sq_abs]; exact hu)) hd1
    have hu2 : |a i' - b u'| < η := lt_of_le_of_lt (Real.le_sqrt_of_sq_le (by rw [sq_abs]; exact hu')) hd1
    have h1 := hr k p q j u u' (a i) (a i') hu1 hu2
    refine (weights (norm_nonneg _) (norm_nonneg _) (norm_nonneg _) (norm_nonneg _) z1 z2 z3 z4 (abs_nonneg _)
      (abs_nonneg _) (abs_nonneg _) (abs_nonneg _) m1 m2 m3 m4 hε'.le hC h1).trans_eq ?_
    field_simp
    ring
  calc _ ≤ ∑ i : Fin m, ∑ i' : Fin m, (ε / (2 * s) + 3 * C * d) * d :=
        (norm_sum_le _ _).trans (Finset.sum_le_sum fun i _ =>
          (norm_sum_le _ _).trans (Finset.sum_le_sum fun i' _ => term i i'))
    _ = (m * m) * ((ε / (2 * s) + 3 * C * d) * d) := by
        simp only [Finset.sum_const, Finset.card_univ, Fintype.card_fin, nsmul_eq_mul]; ring
    _ ≤ s * ((ε / (2 * s) + 3 * C * d) * d) :=
        mul_le_mul_of_nonneg_right (by simp [s]) (by positivity)
    _ = (s * (ε / (2 * s) + 3 * C * d)) * d := by ring
    _ ≤ ε * d := by
        refine mul_le_mul_of_nonneg_right ?_ hd0
        have hKd : 3 * C * d ≤ ε / (2 * s) := by
          calc 3 * C * d ≤ (3 * (C + 1)) * (ε / (6 * s * (C + 1))) :=
                mul_le_mul (by linarith) hd2 hd0 (by linarith)
            _ = ε / (2 * s) := by field_simp; norm_num
        calc s * (ε / (2 * s) + 3 * C * d) ≤ s * (ε / (2 * s) + ε / (2 * s)) :=
              mul_le_mul_of_nonneg_left (by linarith) hs.le
          _ = ε := by field_simp; ring

end Verif.Weinberg
