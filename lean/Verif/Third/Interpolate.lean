import Verif.Third.Divided

/-!
# Interpolation of a function of two points
-/

namespace Verif.Weinberg

open Filter Topology

theorem far {x s u g : ℝ} (hx : |x - s| < g / 2) (h : g ≤ |s - u|) : g / 2 ≤ |x - u| := by
  have : s - u = (x - u) - (x - s) := by ring
  rw [this] at h
  linarith [abs_sub (x - u) (x - s)]

/-- A differentiable function is Lipschitz continuous at a point. -/
theorem lip {s s1 s2 M x y X Y ε : ℝ} (h : |s - s1 * x - s2 * y| ≤ ε * (X + Y)) (hε : ε ≤ 1) (h1 : |s1| ≤ M)
    (h2 : |s2| ≤ M) (hx : |x| = X) (hy : |y| = Y) : |s| ≤ (1 + M) * (X + Y) := by
  subst hx hy
  have e : s = (s - s1 * x - s2 * y) + (s1 * x + s2 * y) := by ring
  rw [e]
  have a1 : |s1 * x| ≤ M * |x| := by rw [abs_mul]; exact mul_le_mul_of_nonneg_right h1 (abs_nonneg _)
  have a2 : |s2 * y| ≤ M * |y| := by rw [abs_mul]; exact mul_le_mul_of_nonneg_right h2 (abs_nonneg _)
  have a3 : ε * (|x| + |y|) ≤ 1 * (|x| + |y|) := mul_le_mul_of_nonneg_right hε (by positivity)
  have := abs_add_le (s - s1 * x - s2 * y) (s1 * x + s2 * y)
  have := abs_add_le (s1 * x) (s2 * y)
  linarith

theorem abs_three {a b c A B C : ℝ} (ha : |a| ≤ A) (hb : |b| ≤ B) (hc : |c| ≤ C) : |a - b - c| ≤ A + B + C :=
  (abs_sub _ _).trans (add_le_add ((abs_sub _ _).trans (add_le_add ha hb)) hc)

theorem interpolate {m : ℕ} (b : Fin m → ℝ) {S S₁ S₂ : ℝ → ℝ → ℝ}
    (hS : ∀ s t, Diff2 S (b s) (b t) (S₁ (b s) (b t)) (S₂ (b s) (b t))) {ε : ℝ} (hε : 0 < ε) :
    ∃ η > 0, ∃ C ≥ 0, ∀ k p q j s t x y, |x - b s| < η → |y - b t| < η →
      |S x y - S (b p) (b j) - side1 S S₁ (b k) (b p) (b j) * (x - b p) -
          side2 S S₂ (b p) (b q) (b j) * (y - b j)| ≤
        ε * (|x - b p| + |y - b j|) + C * (|x - b p| * |x - b k| + |y - b j| * |y - b q| + |x - b p| * |y - b j|) := by
  obtain ⟨g, hg, hgap⟩ := gap b
  have he : 0 < min ε 1 := lt_min hε one_pos
  choose δ hδ hd using fun z : Fin m × Fin m => hS z.1 z.2 _ he
  obtain ⟨η0, hη0, hle⟩ := lower δ hδ
  obtain ⟨M0, hM0, bS⟩ := upper fun z : Fin m × Fin m => S (b z.1) (b z.2)
  obtain ⟨M1, hM1, b1⟩ := upper fun z : Fin m × Fin m => S₁ (b z.1) (b z.2)
  obtain ⟨M2, hM2, b2⟩ := upper fun z : Fin m × Fin m => S₂ (b z.1) (b z.2)
  obtain ⟨M3, hM3, b3⟩ := upper fun z : Fin m × Fin m × Fin m => side1 S S₁ (b z.1) (b z.2.1) (b z.2.2)
  obtain ⟨M4, hM4, b4⟩ := upper fun z : Fin m × Fin m × Fin m => side2 S S₂ (b z.1) (b z.2.1) (b z.2.2)
  obtain ⟨M5, hM5, b5⟩ := upper b
  set M := M0 + M1 + M2 + M3 + M4 + M5
  have hM : 0 < M := by positivity
  replace bS : ∀ s t, |S (b s) (b t)| ≤ M := fun s t => (bS (s, t)).trans (by simp only [M]; linarith)
  replace b1 : ∀ s t, |S₁ (b s) (b t)| ≤ M := fun s t => (b1 (s, t)).trans (by simp only [M]; linarith)
  replace b2 : ∀ s t, |S₂ (b s) (b t)| ≤ M := fun s t => (b2 (s, t)).trans (by simp only [M]; linarith)
  replace b3 : ∀ s t u, |side1 S S₁ (b s) (b t) (b u)| ≤ M := fun s t u =>
    (b3 (s, t, u)).trans (by simp only [M]; linarith)
  replace b4 : ∀ s t u, |side2 S S₂ (b s) (b t) (b u)| ≤ M := fun s t u =>
    (b4 (s, t, u)).trans (by simp only [M]; linarith)
  replace b5 : ∀ s, |b s| ≤ M := fun s => (b5 s).trans (by simp only [M]; linarith)
  clear_value M
  set KB := (1 + M) + (M + M) with hKB
  set KD := ((1 + M) * 2 + (M + M)) + M * (1 + 2 * M) + M * (1 + 2 * M) with hKD
  have hKB0 : 0 < KB := by positivity
  have hKD0 : 0 < KD := by positivity
  set C1 := (M + M) * (2 / g) with hC1
  set C2 := KB * (2 / g) with hC2
  set C3 := KD * (2 / g * (2 / g)) with hC3
  have hC10 : 0 < C1 := by positivity
  have hC20 : 0 < C2 := by positivity
  have hC30 : 0 < C3 := by positivity
  have unit : 2 / g * (g / 2) = 1 := by field_simp
  refine ⟨min (min η0 1) (g / 2), by positivity, C1 + C2 + C3, by positivity, fun k p q j s t x y hx hy => ?_⟩
  have hx1 : |x - b s| < 1 := hx.trans_le ((min_le_left _ _).trans (min_le_right _ _))
  have hy1 : |y - b t| < 1 := hy.trans_le ((min_le_left _ _).trans (min_le_right _ _))
  have hxg : |x - b s| < g / 2 := hx.trans_le (min_le_right _ _)
  have hyg : |y - b t| < g / 2 := hy.trans_le (min_le_right _ _)
  have hD : |S x y - S (b s) (b t) - S₁ (b s) (b t) * (x - b s) - S₂ (b s) (b t) * (y - b t)| ≤
      min ε 1 * (|x - b s| + |y - b t|) := hd (s, t) x y
    (hx.trans_le (((min_le_left _ _).trans (min_le_left _ _)).trans (hle _)))
    (hy.trans_le (((min_le_left _ _).trans (min_le_left _ _)).trans (hle _)))
  have hL : |S x y - S (b s) (b t)| ≤ (1 + M) * (|x - b s| + |y - b t|) :=
    lip hD (min_le_right _ _) (b1 s t) (b2 s t) rfl rfl
  have fx : ∀ u, b s ≠ b u → g / 2 ≤ |x - b u| := fun u h => far hxg (hgap s u h)
  have fy : ∀ u, b t ≠ b u → g / 2 ≤ |y - b u| := fun u h => far hyg (hgap t u h)
  set σ1 := side1 S S₁ (b k) (b p) (b j) with hσ1
  set σ2 := side2 S S₂ (b p) (b q) (b j) with hσ2
  have m1 : σ1 * (b k - b p) = S (b k) (b j) - S (b p) (b j) := side1_mul S S₁ _ _ _
  have m2 : σ2 * (b q - b j) = S (b p) (b q) - S (b p) (b j) := side2_mul S S₂ _ _ _
  have n1 : |σ1| ≤ M := b3 k p j
  have n2 : |σ2| ≤ M := b4 p q j
  have hX := abs_nonneg (x - b p)
  have hXk := abs_nonneg (x - b k)
  have hY := abs_nonneg (y - b j)
  have hYq := abs_nonneg (y - b q)
  have pXX := mul_nonneg hX hXk
  have pYY := mul_nonneg hY hYq
  have pXY := mul_nonneg hX hY
  have pe : 0 ≤ ε * (|x - b p| + |y - b j|) := by positivity
  set Q := |x - b p| * |x - b k| + |y - b j| * |y - b q| + |x - b p| * |y - b j| with hQ
  have hQ0 : 0 ≤ Q := by positivity
  have q1 := mul_nonneg hC10.le hQ0
  have q2 := mul_nonneg hC20.le hQ0
  have q3 := mul_nonneg hC30.le hQ0
  have scale : ∀ {A B : ℝ}, 0 ≤ A → g / 2 ≤ B → A ≤ 2 / g * (B * A) := fun {A B} hA hB => by
    have := mul_le_mul_of_nonneg_left (mul_le_mul_of_nonneg_right hB hA) (by positivity : 0 ≤ 2 / g)
    rwa [← mul_assoc, unit, one_mul] at this
  have dist : ∀ {z w : ℝ} {u s : Fin m}, |z - b s| < 1 → w = b u → |z - w| ≤ 1 + 2 * M := fun {z w u s} h e => by
    subst e
    have e : z - b u = (z - b s) + b s - b u := by ring
    rw [e]
    have h1 := abs_sub ((z - b s) + b s) (b u)
    have h2 := abs_add_le (z - b s) (b s)
    linarith [b5 s, b5 u]
  have D : g / 2 * (g / 2) ≤ Q → |S x y - S (b p) (b j) - σ1 * (x - b p) - σ2 * (y - b j)| ≤
      ε * (|x - b p| + |y - b j|) + (C1 + C2 + C3) * Q := fun h => by
    have k1 : |S x y - S (b p) (b j)| ≤ (1 + M) * 2 + (M + M) := by
      have e : S x y - S (b p) (b j) = (S x y - S (b s) (b t)) + (S (b s) (b t) - S (b p) (b j)) := by ring
      rw [e]
      have h1 := abs_add_le (S x y - S (b s) (b t)) (S (b s) (b t) - S (b p) (b j))
      have h2 := abs_sub (S (b s) (b t)) (S (b p) (b j))
      have h3 : (1 + M) * (|x - b s| + |y - b t|) ≤ (1 + M) * 2 :=
        mul_le_mul_of_nonneg_left (by linarith) (by positivity)
      linarith [bS s t, bS p j]
    have k2 : |σ1 * (x - b p)| ≤ M * (1 + 2 * M) := by
      rw [abs_mul]
      exact mul_le_mul n1 (dist hx1 rfl) hX hM.le
    have k3 : |σ2 * (y - b j)| ≤ M * (1 + 2 * M) := by
      rw [abs_mul]
      exact mul_le_mul n2 (dist hy1 rfl) hY hM.le
    have k4 := abs_three k1 k2 k3
    have k5 : 1 ≤ 2 / g * (2 / g) * Q := by
      have := mul_le_mul_of_nonneg_left h (by positivity : 0 ≤ 2 / g * (2 / g))
      have e : 2 / g * (2 / g) * (g / 2 * (g / 2)) = 1 := by field_simp
      linarith
    have k6 := mul_le_mul_of_nonneg_left k5 hKD0.le
    have k7 : KD * (2 / g * (2 / g) * Q) = C3 * Q := by rw [hC3]; ring
    linarith
  by_cases hsp : b s = b p
  · by_cases htj : b t = b j
    · -- near the centre
      rw [hsp, htj] at hD
      have e : S x y - S (b p) (b j) - σ1 * (x - b p) - σ2 * (y - b j) =
          (S x y - S (b p) (b j) - S₁ (b p) (b j) * (x - b p) - S₂ (b p) (b j) * (y - b j)) -
            (σ1 - S₁ (b p) (b j)) * (x - b p) - (σ2 - S₂ (b p) (b j)) * (y - b j) := by ring
      have k1 : |(σ1 - S₁ (b p) (b j)) * (x - b p)| ≤ C1 * (|x - b p| * |x - b k|) := by
        by_cases hkp : b k = b p
        · rw [hσ1, side1, if_pos hkp, sub_self, zero_mul, abs_zero]
          positivity
        · have := scale hX (fx k (by rw [hsp]; exact Ne.symm hkp))
          rw [abs_mul]
          have h1 : |σ1 - S₁ (b p) (b j)| ≤ M + M := (abs_sub _ _).trans (add_le_add n1 (b1 p j))
          calc _ ≤ (M + M) * (2 / g * (|x - b k| * |x - b p|)) := mul_le_mul h1 this hX (by positivity)
            _ = _ := by rw [hC1]; ring
      have k2 : |(σ2 - S₂ (b p) (b j)) * (y - b j)| ≤ C1 * (|y - b j| * |y - b q|) := by
        by_cases hkp : b q = b j
        · rw [hσ2, side2, if_pos hkp, sub_self, zero_mul, abs_zero]
          positivity
        · have := scale hY (fy q (by rw [htj]; exact Ne.symm hkp))
          rw [abs_mul]
          have h1 : |σ2 - S₂ (b p) (b j)| ≤ M + M := (abs_sub _ _).trans (add_le_add n2 (b2 p j))
          calc _ ≤ (M + M) * (2 / g * (|y - b q| * |y - b j|)) := mul_le_mul h1 this hY (by positivity)
            _ = _ := by rw [hC1]; ring
      have k0 : |S x y - S (b p) (b j) - S₁ (b p) (b j) * (x - b p) - S₂ (b p) (b j) * (y - b j)| ≤
          ε * (|x - b p| + |y - b j|) :=
        hD.trans (mul_le_mul_of_nonneg_right (min_le_left _ _) (by positivity))
      rw [e]
      have k3 := abs_three k0 k1 k2
      have k4 : 0 ≤ C1 * (|x - b p| * |y - b j|) := by positivity
      have k5 : C1 * Q = C1 * (|x - b p| * |x - b k|) + C1 * (|y - b j| * |y - b q|) +
        C1 * (|x - b p| * |y - b j|) := by rw [hQ]; ring
      linarith
    · by_cases htq : b t = b q
      · -- the other point of the second argument
        have e : S x y - S (b p) (b j) - σ1 * (x - b p) - σ2 * (y - b j) =
            (S x y - S (b p) (b q)) - σ1 * (x - b p) - σ2 * (y - b q) := by linear_combination -m2
        rw [hsp, htq] at hL
        have k1 : |σ1 * (x - b p)| ≤ M * (|x - b p| + |y - b q|) := by
          rw [abs_mul]
          exact mul_le_mul n1 (by linarith) hX hM.le
        have k2 : |σ2 * (y - b q)| ≤ M * (|x - b p| + |y - b q|) := by
          rw [abs_mul]
          exact mul_le_mul n2 (by linarith) hYq hM.le
        rw [e]
        have k3 := abs_three hL k1 k2
        have k4 := mul_le_mul_of_nonneg_left (add_le_add (scale hX (fy j htj)) (scale hYq (fy j htj))) hKB0.le
        have k5 : KB * (2 / g * (|y - b j| * |x - b p|) + 2 / g * (|y - b j| * |y - b q|)) =
          C2 * (|x - b p| * |y - b j|) + C2 * (|y - b j| * |y - b q|) := by rw [hC2]; ring
        have k6 : C2 * Q = C2 * (|x - b p| * |x - b k|) + C2 * (|y - b j| * |y - b q|) +
          C2 * (|x - b p| * |y - b j|) := by rw [hQ]; ring
        have k7 : 0 ≤ C2 * (|x - b p| * |x - b k|) := by positivity
        have k8 : (1 + M) * (|x - b p| + |y - b q|) + M * (|x - b p| + |y - b q|) + M * (|x - b p| + |y - b q|) =
          KB * (|x - b p| + |y - b q|) := by rw [hKB]; ring
        linarith
      · refine D ?_
        have := mul_le_mul (fy j htj) (fy q htq) (by positivity) hY
        linarith
  · by_cases hsk : b s = b k
    · by_cases htj : b t = b j
      · -- the other point of the first argument
        have e : S x y - S (b p) (b j) - σ1 * (x - b p) - σ2 * (y - b j) =
            (S x y - S (b k) (b j)) - σ1 * (x - b k) - σ2 * (y - b j) := by linear_combination -m1
        rw [hsk, htj] at hL
        have k1 : |σ1 * (x - b k)| ≤ M * (|x - b k| + |y - b j|) := by
          rw [abs_mul]
          exact mul_le_mul n1 (by linarith) hXk hM.le
        have k2 : |σ2 * (y - b j)| ≤ M * (|x - b k| + |y - b j|) := by
          rw [abs_mul]
          exact mul_le_mul n2 (by linarith) hY hM.le
        rw [e]
        have k3 := abs_three hL k1 k2
        have k4 := mul_le_mul_of_nonneg_left (add_le_add (scale hXk (fx p hsp)) (scale hY (fx p hsp))) hKB0.le
        have k5 : KB * (2 / g * (|x - b p| * |x - b k|) + 2 / g * (|x - b p| * |y - b j|)) =
          C2 * (|x - b p| * |x - b k|) + C2 * (|x - b p| * |y - b j|) := by rw [hC2]; ring
        have k6 : C2 * Q = C2 * (|x - b p| * |x - b k|) + C2 * (|y - b j| * |y - b q|) +
          C2 * (|x - b p| * |y - b j|) := by rw [hQ]; ring
        have k7 : 0 ≤ C2 * (|y - b j| * |y - b q|) := by positivity
        have k8 : (1 + M) * (|x - b k| + |y - b j|) + M * (|x - b k| + |y - b j|) + M * (|x - b k| + |y - b j|) =
          KB * (|x - b k| + |y - b j|) := by rw [hKB]; ring
        linarith
      · refine D ?_
        have := mul_le_mul (fx p hsp) (fy j htj) (by positivity) hX
        linarith
    · refine D ?_
      have := mul_le_mul (fx p hsp) (fx k hsk) (by positivity) hX
      linarith

end Verif.Weinberg
