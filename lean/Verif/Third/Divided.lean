import Verif.Weinberg.Estimate
import Mathlib.Analysis.Calculus.MeanValue
import Mathlib.Analysis.Calculus.Deriv.Pow
import Mathlib.Analysis.Calculus.Deriv.Mul
import Mathlib.Analysis.Calculus.Deriv.Inv

/-!
# Slopes as functions of two points

First-order expansion of the slope of a function between two points, in both points, and the interpolation of a function
of two points through eigenvalues.
-/

namespace Verif.Weinberg

open Filter Topology

/-- `S` is differentiable at `(p, q)` with the partial derivatives `s₁` and `s₂`. -/
def Diff2 (S : ℝ → ℝ → ℝ) (p q s₁ s₂ : ℝ) : Prop :=
  ∀ ε > 0, ∃ η > 0, ∀ x y, |x - p| < η → |y - q| < η →
    |S x y - S p q - s₁ * (x - p) - s₂ * (y - q)| ≤ ε * (|x - p| + |y - q|)

/-- The partial derivative of the slope in its first point. -/
noncomputable def slope1 (f f' f'' : ℝ → ℝ) (p q : ℝ) : ℝ :=
  if p = q then f'' q / 2 else (f' p - slope f f' p q) / (p - q)

/-- A function with a derivative expands to first order. -/
theorem expand {f : ℝ → ℝ} {d p : ℝ} (h : HasDerivAt f d p) {ε : ℝ} (hε : 0 < ε) :
    ∃ η > 0, ∀ x, |x - p| < η → |f x - f p - d * (x - p)| ≤ ε * |x - p| := by
  rw [hasDerivAt_iff_isLittleO, Asymptotics.isLittleO_iff] at h
  obtain ⟨η, hη, hb⟩ := Metric.eventually_nhds_iff.1 (h hε)
  refine ⟨η, hη, fun x hx => ?_⟩
  have := hb (y := x) (by rw [Real.dist_eq]; exact hx)
  simp only [smul_eq_mul, Real.norm_eq_abs] at this
  rwa [mul_comm d]

/-- Different points. -/
theorem diff2_ne {f f' : ℝ → ℝ} {p q : ℝ} (hpq : p ≠ q) (hp : HasDerivAt f (f' p) p) (hq : HasDerivAt f (f' q) q)
    (f'' : ℝ → ℝ) : Diff2 (slope f f') p q (slope1 f f' f'' p q) (slope1 f f' f'' q p) := by
  intro ε hε
  set g := |p - q| with hg
  have hg0 : 0 < g := abs_pos.2 (sub_ne_zero.2 hpq)
  set σ := slope f f' p q with hσ
  have hσv : σ * (p - q) = f p - f q := by
    rw [hσ, slope, if_neg hpq, div_mul_cancel₀ _ (sub_ne_zero.2 hpq)]
  set A := slope1 f f' f'' p q with hA
  set B := slope1 f f' f'' q p with hB
  have hAv : A * (p - q) = f' p - σ := by
    rw [hA, slope1, if_neg hpq, div_mul_cancel₀ _ (sub_ne_zero.2 hpq)]
  have hBv : B * (p - q) = -(f' q - σ) := by
    rw [hB, slope1, if_neg (Ne.symm hpq), slope_symm f f' q p]
    have : q - p ≠ 0 := sub_ne_zero.2 (Ne.symm hpq)
    field_simp
    ring
  have he : 0 < ε * g / 8 := by positivity
  obtain ⟨η1, h1, e1⟩ := expand hp he
  obtain ⟨η2, h2, e2⟩ := expand hq he
  set K := |A| + |B| + 1
  have hK : 0 < K := by positivity
  refine ⟨min (min η1 η2) (min (g / 4) (ε * g / (8 * K))), by positivity, fun x y hx hy => ?_⟩
  have hx1 : |x - p| < η1 := hx.trans_le ((min_le_left _ _).trans (min_le_left _ _))
  have hy1 : |y - q| < η2 := hy.trans_le ((min_le_left _ _).trans (min_le_right _ _))
  have hx2 : |x - p| < g / 4 := hx.trans_le ((min_le_right _ _).trans (min_le_left _ _))
  have hy2 : |y - q| < g / 4 := hy.trans_le ((min_le_right _ _).trans (min_le_left _ _))
  have hx3 : |x - p| < ε * g / (8 * K) := hx.trans_le ((min_le_right _ _).trans (min_le_right _ _))
  have hy3 : |y - q| < ε * g / (8 * K) := hy.trans_le ((min_le_right _ _).trans (min_le_right _ _))
  have hxy : g / 2 ≤ |x - y| := by
    have : p - q = (x - y) - (x - p) + (y - q) := by ring
    have h3 : g ≤ |x - y| + |x - p| + |y - q| := by
      rw [hg, this]
      exact (abs_add_le _ _).trans (add_le_add (abs_sub _ _) le_rfl)
    linarith
  have hne : x ≠ y := by
    rintro rfl
    rw [sub_self, abs_zero] at hxy
    linarith
  have hd : x - y ≠ 0 := sub_ne_zero.2 hne
  have key : (slope f f' x y - σ - A * (x - p) - B * (y - q)) * (x - y) =
      (f x - f p - f' p * (x - p)) - (f y - f q - f' q * (y - q)) -
        (A * (x - p) + B * (y - q)) * ((x - p) - (y - q)) := by
    rw [slope, if_neg hne, sub_mul, sub_mul, sub_mul, div_mul_cancel₀ _ hd]
    linear_combination -hσv - (x - p) * hAv - (y - q) * hBv
  have hX := abs_nonneg (x - p)
  have hY := abs_nonneg (y - q)
  have hb : |(slope f f' x y - σ - A * (x - p) - B * (y - q)) * (x - y)| ≤
      ε * g / 2 * (|x - p| + |y - q|) := by
    rw [key]
    have t1 := e1 x hx1
    have t2 := e2 y hy1
    have t3 : |(A * (x - p) + B * (y - q)) * ((x - p) - (y - q))| ≤ ε * g / 4 * (|x - p| + |y - q|) := by
      rw [abs_mul]
      have u1 : |A * (x - p) + B * (y - q)| ≤ K * (|x - p| + |y - q|) := by
        refine (abs_add_le _ _).trans ?_
        rw [abs_mul, abs_mul]
        have : |A| ≤ K := by simp only [K]; linarith [abs_nonneg B]
        have : |B| ≤ K := by simp only [K]; linarith [abs_nonneg A]
        rw [mul_add]
        exact add_le_add (mul_le_mul_of_nonneg_right ‹|A| ≤ K› hX) (mul_le_mul_of_nonneg_right ‹|B| ≤ K› hY)
      have u2 : |(x - p) - (y - q)| ≤ ε * g / (4 * K) := by
        refine (abs_sub _ _).trans ((add_le_add hx3.le hy3.le).trans_eq ?_)
        field_simp
        ring
      calc _ ≤ (K * (|x - p| + |y - q|)) * (ε * g / (4 * K)) := mul_le_mul u1 u2 (abs_nonneg _) (by positivity)
        _ = _ := by field_simp
    calc _ ≤ |(f x - f p - f' p * (x - p)) - (f y - f q - f' q * (y - q))| +
          |(A * (x - p) + B * (y - q)) * ((x - p) - (y - q))| := abs_sub _ _
      _ ≤ (ε * g / 8 * |x - p| + ε * g / 8 * |y - q|) + ε * g / 4 * (|x - p| + |y - q|) :=
          add_le_add ((abs_sub _ _).trans (add_le_add t1 t2)) t3
      _ ≤ _ := by
          have : 0 ≤ ε * g * (|x - p| + |y - q|) := by positivity
          nlinarith
  rw [abs_mul] at hb
  have h0 := abs_nonneg (slope f f' x y - σ - A * (x - p) - B * (y - q))
  have h5 := (mul_le_mul_of_nonneg_left hxy h0).trans hb
  have : |slope f f' x y - σ - A * (x - p) - B * (y - q)| * g ≤ ε * (|x - p| + |y - q|) * g := by nlinarith
  exact le_of_mul_le_mul_right this hg0

/-- Equal points. -/
theorem diff2_eq {f f' f'' : ℝ → ℝ} {p : ℝ} (hp : ∀ᶠ x in 𝓝 p, HasDerivAt f (f' x) x)
    (h' : HasDerivAt f' (f'' p) p) : Diff2 (slope f f') p p (slope1 f f' f'' p p) (slope1 f f' f'' p p) := by
  intro ε hε
  obtain ⟨η1, h1, e1⟩ := Metric.eventually_nhds_iff.1 hp
  obtain ⟨η2, h2, e2⟩ := expand h' hε
  refine ⟨min η1 η2, by positivity, fun x y hx hy => ?_⟩
  set A := f'' p / 2 with hA
  have hs : slope1 f f' f'' p p = A := by rw [slope1, if_pos rfl]
  have hσ : slope f f' p p = f' p := by rw [slope, if_pos rfl]
  rw [hs, hσ]
  set g : ℝ → ℝ := fun z => f z - f' p * z - A * (z - p) ^ 2
  set r := max |x - p| |y - p| with hr
  have hg : ∀ z, |z - p| ≤ r → HasDerivAt g (f' z - f' p - f'' p * (z - p)) z := fun z hz => by
    have hz1 : |z - p| < min η1 η2 := lt_of_le_of_lt hz (max_lt hx hy)
    have hz2 : HasDerivAt f (f' z) z := e1 (by rw [Real.dist_eq]; exact hz1.trans_le (min_le_left _ _))
    have := (hz2.fun_sub ((hasDerivAt_id' z).const_mul (f' p))).fun_sub
      ((((hasDerivAt_id' z).sub_const p).fun_pow 2).const_mul A)
    refine this.congr_deriv ?_
    rw [hA]
    simp
    ring
  have hb : ∀ z, |z - p| ≤ r → |f' z - f' p - f'' p * (z - p)| ≤ ε * r := fun z hz => by
    have hz1 : |z - p| < min η1 η2 := lt_of_le_of_lt hz (max_lt hx hy)
    exact (e2 z (hz1.trans_le (min_le_right _ _))).trans (mul_le_mul_of_nonneg_left hz hε.le)
  have hrle : r ≤ |x - p| + |y - p| :=
    max_le (le_add_of_nonneg_right (abs_nonneg _)) (le_add_of_nonneg_left (abs_nonneg _))
  refine le_trans ?_ (mul_le_mul_of_nonneg_left hrle hε.le)
  by_cases hxy : x = y
  · subst hxy
    rw [slope, if_pos rfl]
    have := hb x (le_max_left _ _)
    rw [show f' x - f' p - A * (x - p) - A * (x - p) = f' x - f' p - f'' p * (x - p) by rw [hA]; ring]
    exact this
  · have hd : x - y ≠ 0 := sub_ne_zero.2 hxy
    have hm : |g x - g y| ≤ ε * r * |x - y| := by
      have hc : Convex ℝ (Metric.closedBall p r) := convex_closedBall p r
      have := hc.norm_image_sub_le_of_norm_hasDerivWithin_le (f := g)
        (f' := fun z => f' z - f' p - f'' p * (z - p)) (C := ε * r) (x := y) (y := x)
        (fun z hz => (hg z (by rwa [Metric.mem_closedBall, Real.dist_eq] at hz)).hasDerivWithinAt)
        (fun z hz => hb z (by rwa [Metric.mem_closedBall, Real.dist_eq] at hz))
        (by rw [Metric.mem_closedBall, Real.dist_eq]; exact le_max_right _ _)
        (by rw [Metric.mem_closedBall, Real.dist_eq]; exact le_max_left _ _)
      exact this
    have key : (slope f f' x y - f' p - A * (x - p) - A * (y - p)) * (x - y) = g x - g y := by
      rw [slope, if_neg hxy, sub_mul, sub_mul, sub_mul, div_mul_cancel₀ _ hd]
      simp only [g]
      ring
    rw [← key, abs_mul] at hm
    exact le_of_mul_le_mul_right hm (abs_pos.2 hd)

theorem diff2_slope {f f' f'' : ℝ → ℝ} {p q : ℝ} (hp : ∀ᶠ x in 𝓝 p, HasDerivAt f (f' x) x)
    (hq : ∀ᶠ x in 𝓝 q, HasDerivAt f (f' x) x) (h' : HasDerivAt f' (f'' p) p) :
    Diff2 (slope f f') p q (slope1 f f' f'' p q) (slope1 f f' f'' q p) := by
  by_cases h : p = q
  · subst h
    exact diff2_eq hp h'
  · exact diff2_ne h hp.self_of_nhds hq.self_of_nhds f''

/-- The slope of `S` in its first argument between `k` and `p`, where `S₁` is the partial derivative. -/
noncomputable def side1 (S S₁ : ℝ → ℝ → ℝ) (k p j : ℝ) : ℝ := if k = p then S₁ p j else (S k j - S p j) / (k - p)

/-- The slope of `S` in its second argument between `q` and `j`, where `S₂` is the partial derivative. -/
noncomputable def side2 (S S₂ : ℝ → ℝ → ℝ) (p q j : ℝ) : ℝ := if q = j then S₂ p j else (S p q - S p j) / (q - j)

theorem side1_mul (S S₁ : ℝ → ℝ → ℝ) (k p j : ℝ) : side1 S S₁ k p j * (k - p) = S k j - S p j := by
  unfold side1
  split_ifs with h
  · rw [h]; simp
  · rw [div_mul_cancel₀ _ (sub_ne_zero.2 h)]

theorem side2_mul (S S₂ : ℝ → ℝ → ℝ) (p q j : ℝ) : side2 S S₂ p q j * (q - j) = S p q - S p j := by
  unfold side2
  split_ifs with h
  · rw [h]; simp
  · rw [div_mul_cancel₀ _ (sub_ne_zero.2 h)]

/-- A gap between different points of a finite set. -/
theorem gap {m : ℕ} (b : Fin m → ℝ) : ∃ g > 0, ∀ s t, b s ≠ b t → g ≤ |b s - b t| := by
  classical
  set P := (Finset.univ : Finset (Fin m × Fin m)).filter fun x => b x.1 ≠ b x.2
  by_cases hP : P.Nonempty
  · obtain ⟨x, hx, hmin⟩ := Finset.exists_min_image P (fun x => |b x.1 - b x.2|) hP
    rw [Finset.mem_filter] at hx
    exact ⟨_, abs_pos.2 (sub_ne_zero.2 hx.2), fun s t h =>
      hmin (s, t) (Finset.mem_filter.2 ⟨Finset.mem_univ _, h⟩)⟩
  · refine ⟨1, one_pos, fun s t h => absurd ⟨(s, t), Finset.mem_filter.2 ⟨Finset.mem_univ _, h⟩⟩ hP⟩

/-- A positive lower bound of finitely many positive numbers. -/
theorem lower {ι : Type} [Fintype ι] (δ : ι → ℝ) (h : ∀ i, 0 < δ i) : ∃ η > 0, ∀ i, η ≤ δ i := by
  by_cases hm : Nonempty ι
  · obtain ⟨j0, -, hj0⟩ := Finset.exists_min_image Finset.univ δ (Finset.univ_nonempty_iff.2 hm)
    exact ⟨δ j0, h j0, fun j => hj0 j (Finset.mem_univ j)⟩
  · exact ⟨1, one_pos, fun j => absurd ⟨j⟩ hm⟩

theorem upper {ι : Type} [Fintype ι] (δ : ι → ℝ) : ∃ C > 0, ∀ i, |δ i| ≤ C := by
  refine ⟨∑ i, |δ i| + 1, by positivity, fun i => ?_⟩
  have := Finset.single_le_sum (f := fun i => |δ i|) (fun _ _ => abs_nonneg _) (Finset.mem_univ i)
  linarith

end Verif.Weinberg
