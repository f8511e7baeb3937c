import Verif.Weinberg.Trace
import Mathlib.Analysis.Calculus.Deriv.Basic
import Mathlib.Analysis.SpecialFunctions.Sqrt

/-!
# First-order expansion of functions of Hermitian matrices
-/

namespace Verif.Weinberg

open Matrix Filter Topology
open scoped BigOperators

variable {𝕜 : Type} [RCLike 𝕜] {m : Nat}

/-- Bounded on bounded sets. -/
def Bounded (F : ℝ → ℝ) : Prop := ∀ R, ∃ C, ∀ x, |x| ≤ R → |F x| ≤ C

/-- First-order expansion with an error that is uniform on a bounded set. -/
theorem point {F : ℝ → ℝ} {f b : ℝ} (h : HasDerivAt F f b) (hb : Bounded F) {ε : ℝ} (hε : 0 < ε)
    (R : ℝ) : ∃ C, 0 ≤ C ∧ ∀ a, |a| ≤ R →
      |F a - F b - (a - b) * f| ≤ ε * |a - b| + C * (a - b) ^ 2 := by
  rw [hasDerivAt_iff_isLittleO, Asymptotics.isLittleO_iff] at h
  obtain ⟨δ, hδ, hball⟩ := Metric.eventually_nhds_iff.1 (h hε)
  obtain ⟨C0, hC0⟩ := hb R
  refine ⟨(|C0| + |F b|) / δ ^ 2 + |f| / δ, by positivity, fun a ha => ?_⟩
  have hnn : 0 ≤ ((|C0| + |F b|) / δ ^ 2 + |f| / δ) * (a - b) ^ 2 := by positivity
  by_cases hd : |a - b| < δ
  · have := hball (y := a) (by rw [Real.dist_eq]; exact hd)
    simp only [smul_eq_mul, Real.norm_eq_abs] at this
    linarith
  · have hd := not_lt.1 hd
    have h1 : |F a - F b - (a - b) * f| ≤ |C0| + |F b| + |a - b| * |f| := by
      calc |F a - F b - (a - b) * f| ≤ |F a - F b| + |(a - b) * f| := abs_sub _ _
        _ ≤ |F a| + |F b| + |a - b| * |f| := by
          rw [abs_mul]; exact add_le_add (abs_sub _ _) le_rfl
        _ ≤ _ := by linarith [hC0 a ha, le_abs_self C0]
    have hs : (a - b) ^ 2 = |a - b| ^ 2 := (sq_abs _).symm
    have h2 : |C0| + |F b| ≤ (|C0| + |F b|) / δ ^ 2 * (a - b) ^ 2 := by
      rw [div_mul_eq_mul_div, le_div_iff₀ (by positivity), hs]
      exact mul_le_mul_of_nonneg_left (pow_le_pow_left₀ hδ.le hd 2) (by positivity)
    have h3 : |a - b| * |f| ≤ |f| / δ * (a - b) ^ 2 := by
      rw [div_mul_eq_mul_div, le_div_iff₀ hδ, hs]
      have : |a - b| * |f| * δ ≤ |a - b| * |f| * |a - b| :=
        mul_le_mul_of_nonneg_left hd (by positivity)
      calc _ ≤ _ := this
        _ = _ := by ring
    have h4 : 0 ≤ ε * |a - b| := by positivity
    calc _ ≤ _ := h1
      _ ≤ _ := by rw [add_mul]; linarith

/-- The slope of `f` between `p` and `q`, the derivative `f'` at coinciding points. -/
noncomputable def slope (f f' : ℝ → ℝ) (p q : ℝ) : ℝ := if p = q then f' q else (f p - f q) / (p - q)

theorem slope_symm (f f' : ℝ → ℝ) (p q : ℝ) : slope f f' p q = slope f f' q p := by
  unfold slope
  by_cases h : p = q
  · rw [if_pos h, if_pos h.symm, h]
  · rw [if_neg h, if_neg (Ne.symm h), ← neg_sub (f q), ← neg_sub q, neg_div_neg_eq]

/-- The error of the interpolation through two points. -/
theorem pair {f f' : ℝ → ℝ} {p q : ℝ} (hp : HasDerivAt f (f' p) p) (hq : HasDerivAt f (f' q) q)
    (hb : Bounded f) {ε : ℝ} (hε : 0 < ε) (R : ℝ) : ∃ C, 0 ≤ C ∧ ∀ a, |a| ≤ R →
      |f a - f q - slope f f' p q * (a - q)| ≤ ε * |a - q| + C * (|a - q| * |a - p|) := by
  by_cases hpq : p = q
  · subst hpq
    obtain ⟨C, hC, h⟩ := point hp hb hε R
    refine ⟨C, hC, fun a ha => ?_⟩
    have := h a ha
    rw [slope, if_pos rfl, mul_comm (f' p), ← sq, sq_abs]
    exact this
  · obtain ⟨C1, hC1, h1⟩ := point hq hb one_pos R
    obtain ⟨C2, hC2, h2⟩ := point hp hb one_pos R
    have hg : 0 < |p - q| := abs_pos.2 (sub_ne_zero.2 hpq)
    set g := slope f f' p q with hgdef
    have hgv : g * (p - q) = f p - f q := by
      rw [hgdef, slope, if_neg hpq, div_mul_cancel₀ _ (sub_ne_zero.2 hpq)]
    set K1 := 1 + |f' q| + |g| + C1 * (|R| + |q|)
    set K2 := 1 + |f' p| + |g| + C2 * (|R| + |p|)
    have hK1 : 0 ≤ K1 := by positivity
    have hK2 : 0 ≤ K2 := by positivity
    have e1 : ∀ a, |a| ≤ R → |f a - f q - g * (a - q)| ≤ K1 * |a - q| := fun a ha => by
      have hx : |a - q| ≤ |R| + |q| := (abs_sub _ _).trans (by linarith [le_abs_self R])
      have e : f a - f q - g * (a - q) = (f a - f q - (a - q) * f' q) + (f' q - g) * (a - q) := by ring
      rw [e]
      refine (abs_add_le _ _).trans ?_
      have hm : |(f' q - g) * (a - q)| ≤ (|f' q| + |g|) * |a - q| := by
        rw [abs_mul]; exact mul_le_mul_of_nonneg_right (abs_sub _ _) (abs_nonneg _)
      have hs : C1 * (a - q) ^ 2 ≤ C1 * (|R| + |q|) * |a - q| := by
        rw [← sq_abs, sq, mul_assoc]
        exact mul_le_mul_of_nonneg_left (mul_le_mul_of_nonneg_right hx (abs_nonneg _)) hC1
      calc _ ≤ (1 * |a - q| + C1 * (a - q) ^ 2) + (|f' q| + |g|) * |a - q| := add_le_add (h1 a ha) hm
        _ ≤ (1 * |a - q| + C1 * (|R| + |q|) * |a - q|) + (|f' q| + |g|) * |a - q| := by linarith
        _ = K1 * |a - q| := by ring
    have e2 : ∀ a, |a| ≤ R → |f a - f q - g * (a - q)| ≤ K2 * |a - p| := fun a ha => by
      have hx : |a - p| ≤ |R| + |p| := (abs_sub _ _).trans (by linarith [le_abs_self R])
      have e : f a - f q - g * (a - q) = (f a - f p - (a - p) * f' p) + (f' p - g) * (a - p) := by
        linear_combination -hgv
      rw [e]
      refine (abs_add_le _ _).trans ?_
      have hm : |(f' p - g) * (a - p)| ≤ (|f' p| + |g|) * |a - p| := by
        rw [abs_mul]; exact mul_le_mul_of_nonneg_right (abs_sub _ _) (abs_nonneg _)
      have hs : C2 * (a - p) ^ 2 ≤ C2 * (|R| + |p|) * |a - p| := by
        rw [← sq_abs, sq, mul_assoc]
        exact mul_le_mul_of_nonneg_left (mul_le_mul_of_nonneg_right hx (abs_nonneg _)) hC2
      calc _ ≤ (1 * |a - p| + C2 * (a - p) ^ 2) + (|f' p| + |g|) * |a - p| := add_le_add (h2 a ha) hm
        _ ≤ (1 * |a - p| + C2 * (|R| + |p|) * |a - p|) + (|f' p| + |g|) * |a - p| := by linarith
        _ = K2 * |a - p| := by ring
    refine ⟨2 * (K1 + K2) / |p - q|, by positivity, fun a ha => ?_⟩
    have hnn : 0 ≤ ε * |a - q| := by positivity
    have htri : |p - q| ≤ |a - q| + |a - p| := by
      have : p - q = (a - q) - (a - p) := by ring
      rw [this]; exact abs_sub _ _
    refine le_trans ?_ (le_add_of_nonneg_left hnn)
    rw [div_mul_eq_mul_div, le_div_iff₀ hg]
    have A1 := abs_nonneg (a - q)
    have A2 := abs_nonneg (a - p)
    rcases le_total |a - q| |a - p| with hle | hle
    · have h3 : |p - q| ≤ 2 * |a - p| := by linarith
      calc |f a - f q - g * (a - q)| * |p - q| ≤ (K1 * |a - q|) * (2 * |a - p|) :=
            mul_le_mul (e1 a ha) h3 hg.le (by positivity)
        _ = 2 * K1 * (|a - q| * |a - p|) := by ring
        _ ≤ _ := mul_le_mul_of_nonneg_right (by linarith) (by positivity)
    · have h3 : |p - q| ≤ 2 * |a - q| := by linarith
      calc |f a - f q - g * (a - q)| * |p - q| ≤ (K2 * |a - p|) * (2 * |a - q|) :=
            mul_le_mul (e2 a ha) h3 hg.le (by positivity)
        _ = 2 * K2 * (|a - q| * |a - p|) := by ring
        _ ≤ _ := mul_le_mul_of_nonneg_right (by linarith) (by positivity)

section

variable {A B U V : Matrix (Fin m) (Fin m) 𝕜} {a b : Fin m → ℝ}

theorem Diag.moved (hA : Diag A U a) (hB : Diag B V b) (i j : Fin m) :
    ‖(star U * V) i j‖ * |a i - b j| ≤ √(frob (A - B)) := by
  refine Real.le_sqrt_of_sq_le ?_
  rw [mul_pow, sq_abs]
  refine le_trans ?_ (hA.column hB j)
  exact Finset.single_le_sum (f := fun i => ‖(star U * V) i j‖ ^ 2 * (a i - b j) ^ 2)
    (fun _ _ => by positivity) (Finset.mem_univ i)

theorem Diag.norm_le_one (hA : Diag A U a) (hB : Diag B V b) (i j : Fin m) :
    ‖(star U * V) i j‖ ≤ 1 := by
  have h : ‖(star U * V) i j‖ ^ 2 ≤ 1 := by
    rw [← weight_left hA.left hB.right i]
    exact Finset.single_le_sum (f := fun j => ‖(star U * V) i j‖ ^ 2) (fun _ _ => by positivity)
      (Finset.mem_univ j)
  exact (sq_le_one_iff₀ (norm_nonneg _)).1 h

theorem Diag.eigen_le (hA : Diag A U a) (hB : Diag B V b) (h1 : √(frob (A - B)) ≤ 1) (i : Fin m) :
    |a i| ≤ ∑ j, |b j| + 1 := by
  obtain ⟨j, hj⟩ := hA.near hB i
  have h2 : |a i - b j| ≤ 1 := by
    refine le_trans ?_ h1
    exact Real.le_sqrt_of_sq_le (by rw [sq_abs]; exact hj)
  have h3 : |b j| ≤ ∑ j, |b j| :=
    Finset.single_le_sum (f := fun j => |b j|) (fun _ _ => abs_nonneg _) (Finset.mem_univ j)
  calc |a i| = |b j + (a i - b j)| := by congr 1; ring
    _ ≤ |b j| + |a i - b j| := abs_add_le _ _
    _ ≤ _ := by linarith

end

/-- The trace of a function of a matrix is differentiable. -/
theorem trace_estimate {B V : Matrix (Fin m) (Fin m) 𝕜} {b : Fin m → ℝ} (hB : Diag B V b)
    {F f : ℝ → ℝ} (hF : ∀ j, HasDerivAt F (f (b j)) (b j)) (hb : Bounded F) {ε : ℝ} (hε : 0 < ε) :
    ∃ δ, 0 < δ ∧ ∀ (A U : Matrix (Fin m) (Fin m) 𝕜) (a : Fin m → ℝ), Diag A U a →
      √(frob (A - B)) < δ →
      |∑ i, F (a i) - ∑ j, F (b j) - RCLike.re (trace ((A - B) * fn f V b))| ≤
        ε * √(frob (A - B)) := by
  set R := ∑ j, |b j| + 1
  set s : ℝ := (m : ℝ) * m + 1
  have hs : 0 < s := by positivity
  have hε' : 0 < ε / (2 * s) := by positivity
  choose C hC0 hC using fun j => point (hF j) hb hε' R
  set K := ∑ j, C j
  have hK : 0 ≤ K := Finset.sum_nonneg fun j _ => hC0 j
  refine ⟨min 1 (ε / (2 * s * (K + 1))), lt_min one_pos (by positivity), fun A U a hA hd => ?_⟩
  set d := √(frob (A - B)) with hddef
  have hd0 : 0 ≤ d := Real.sqrt_nonneg _
  have hd1 : d ≤ 1 := hd.le.trans (min_le_left _ _)
  have hd2 : d ≤ ε / (2 * s * (K + 1)) := hd.le.trans (min_le_right _ _)
  rw [hA.trace_remainder hB]
  have term : ∀ i j, |‖(star U * V) i j‖ ^ 2 * (F (a i) - F (b j) - (a i - b j) * f (b j))| ≤
      (ε / (2 * s) + K * d) * d := fun i j => by
    have hz := hA.norm_le_one hB i j
    have hz0 := norm_nonneg ((star U * V) i j)
    have hm := hA.moved hB i j
    rw [← hddef] at hm
    rw [abs_mul, abs_of_nonneg (sq_nonneg _)]
    have h1 := hC j (a i) (hA.eigen_le hB hd1 i)
    have hCK : C j ≤ K := Finset.single_le_sum (fun j _ => hC0 j) (Finset.mem_univ j)
    have hx := abs_nonneg (a i - b j)
    calc _ ≤ ‖(star U * V) i j‖ ^ 2 * (ε / (2 * s) * |a i - b j| + C j * (a i - b j) ^ 2) :=
          mul_le_mul_of_nonneg_left h1 (sq_nonneg _)
      _ = ε / (2 * s) * (‖(star U * V) i j‖ * (‖(star U * V) i j‖ * |a i - b j|)) +
          C j * (‖(star U * V) i j‖ * |a i - b j|) ^ 2 := by
          rw [mul_pow, sq_abs]; ring
      _ ≤ ε / (2 * s) * (1 * d) + K * d ^ 2 := by
          refine add_le_add (mul_le_mul_of_nonneg_left ?_ hε'.le) ?_
          · exact mul_le_mul hz hm (by positivity) zero_le_one
          · exact mul_le_mul hCK (pow_le_pow_left₀ (by positivity) hm 2) (by positivity) hK
      _ = _ := by ring
  calc |∑ i, ∑ j, ‖(star U * V) i j‖ ^ 2 * (F (a i) - F (b j) - (a i - b j) * f (b j))|
      ≤ ∑ i : Fin m, ∑ j : Fin m, (ε / (2 * s) + K * d) * d :=
        (Finset.abs_sum_le_sum_abs _ _).trans (Finset.sum_le_sum fun i _ =>
          (Finset.abs_sum_le_sum_abs _ _).trans (Finset.sum_le_sum fun j _ => term i j))
    _ = (m * m) * ((ε / (2 * s) + K * d) * d) := by
        simp only [Finset.sum_const, Finset.card_univ, Fintype.card_fin, nsmul_eq_mul]; ring
    _ ≤ s * ((ε / (2 * s) + K * d) * d) :=
        mul_le_mul_of_nonneg_right (by simp [s]) (by positivity)
    _ = (s * (ε / (2 * s) + K * d)) * d := by ring
    _ ≤ ε * d := by
        refine mul_le_mul_of_nonneg_right ?_ hd0
        have hKd : K * d ≤ ε / (2 * s) := by
          calc K * d ≤ (K + 1) * (ε / (2 * s * (K + 1))) :=
                mul_le_mul (by linarith) hd2 hd0 (by linarith)
            _ = ε / (2 * s) := by field_simp
        calc s * (ε / (2 * s) + K * d) ≤ s * (ε / (2 * s) + ε / (2 * s)) :=
              mul_le_mul_of_nonneg_left (by linarith) hs.le
          _ = ε := by field_simp; ring

/-- A function of a matrix is differentiable; its derivative is given by the slopes of the function
between the eigenvalues. -/
theorem fn_estimate {B V : Matrix (Fin m) (Fin m) 𝕜} {b : Fin m → ℝ} (hB : Diag B V b)
    {f f' : ℝ → ℝ} (hf : ∀ j, HasDerivAt f (f' (b j)) (b j)) (hb : Bounded f) (k j : Fin m) {ε : ℝ}
    (hε : 0 < ε) :
    ∃ δ, 0 < δ ∧ ∀ (A U : Matrix (Fin m) (Fin m) 𝕜) (a : Fin m → ℝ), Diag A U a →
      √(frob (A - B)) < δ →
      ‖(star V * (fn f U a - fn f V b) * V) k j -
          (slope f f' (b k) (b j) : 𝕜) * (star V * (A - B) * V) k j‖ ≤ ε * √(frob (A - B)) := by
  set R := ∑ j, |b j| + 1
  set s : ℝ := (m : ℝ) + 1
  have hs : 0 < s := by positivity
  have hε' : 0 < ε / (2 * s) := by positivity
  obtain ⟨K, hK, hC⟩ := pair (hf k) (hf j) hb hε' R
  refine ⟨min 1 (ε / (2 * s * (K + 1))), lt_min one_pos (by positivity), fun A U a hA hd => ?_⟩
  set d := √(frob (A - B)) with hddef
  have hd0 : 0 ≤ d := Real.sqrt_nonneg _
  have hd1 : d ≤ 1 := hd.le.trans (min_le_left _ _)
  have hd2 : d ≤ ε / (2 * s * (K + 1)) := hd.le.trans (min_le_right _ _)
  rw [hA.fn_remainder hB]
  have term : ∀ i, ‖((f (a i) - f (b j) - slope f f' (b k) (b j) * (a i - b j) : ℝ) : 𝕜) *
        (star ((star U * V) i k) * (star U * V) i j)‖ ≤ (ε / (2 * s) + K * d) * d := fun i => by
    have hz := hA.norm_le_one hB i k
    have hm := hA.moved hB i j
    have hm' := hA.moved hB i k
    rw [← hddef] at hm hm'
    rw [norm_mul, norm_mul, norm_star, RCLike.norm_ofReal]
    have h1 := hC (a i) (hA.eigen_le hB hd1 i)
    calc _ ≤ (ε / (2 * s) * |a i - b j| + K * (|a i - b j| * |a i - b k|)) *
            (‖(star U * V) i k‖ * ‖(star U * V) i j‖) :=
          mul_le_mul_of_nonneg_right h1 (by positivity)
      _ = ε / (2 * s) * (‖(star U * V) i k‖ * (‖(star U * V) i j‖ * |a i - b j|)) +
          K * ((‖(star U * V) i j‖ * |a i - b j|) * (‖(star U * V) i k‖ * |a i - b k|)) := by ring
      _ ≤ ε / (2 * s) * (1 * d) + K * (d * d) := by
          refine add_le_add (mul_le_mul_of_nonneg_left ?_ hε'.le) (mul_le_mul_of_nonneg_left ?_ hK)
          · exact mul_le_mul hz hm (by positivity) zero_le_one
          · exact mul_le_mul hm hm' (by positivity) hd0
      _ = _ := by ring
  calc _ ≤ ∑ i : Fin m, (ε / (2 * s) + K * d) * d :=
        (norm_sum_le _ _).trans (Finset.sum_le_sum fun i _ => term i)
    _ = m * ((ε / (2 * s) + K * d) * d) := by
        simp only [Finset.sum_const, Finset.card_univ, Fintype.card_fin, nsmul_eq_mul]
    _ ≤ s * ((ε / (2 * s) + K * d) * d) :=
        mul_le_mul_of_nonneg_right (by simp [s]) (by positivity)
    _ = (s * (ε / (2 * s) + K * d)) * d := by ring
    _ ≤ ε * d := by
        refine mul_le_mul_of_nonneg_right ?_ hd0
        have hKd : K * d ≤ ε / (2 * s) := by
          calc K * d ≤ (K + 1) * (ε / (2 * s * (K + 1))) :=
                mul_le_mul (by linarith) hd2 hd0 (by linarith)
            _ = ε / (2 * s) := by field_simp
        calc s * (ε / (2 * s) + K * d) ≤ s * (ε / (2 * s) + ε / (2 * s)) :=
              mul_le_mul_of_nonneg_left (by linarith) hs.le
          _ = ε := by field_simp; ring

end Verif.Weinberg
