import Mathlib.LinearAlgebra.FiniteDimensional.Basic
import Mathlib.LinearAlgebra.FiniteDimensional.Lemmas
import Mathlib.LinearAlgebra.Matrix.ToLin
import Mathlib.Data.Rat.Cast.Order
import Verif.Spline.Lemmas

/-!
# C64: splines

A spline built from points with increasing abscissas passes through the points, is differentiable
with the derivative that `deriv` returns, twice differentiable for the classical cubic spline, meets
its boundary conditions, and reproduces polynomials that meet them.
-/

set_option linter.unusedSectionVars false
set_option linter.unusedSimpArgs false

namespace Verif.Spline

variable {K : Type} [Field K] [LinearOrder K] [IsStrictOrderedRing K]

/-- What `set_points` asserts: three points, four for a not-a-knot condition, and increasing
abscissas. -/
structure Spec.Points (s : Spl K) (n : Nat) (x : Nat → K) : Prop where
  three : 3 ≤ n
  four : s.left = .notAKnot ∨ s.right = .notAKnot → 4 ≤ n
  incr : ∀ i, i + 1 < n → x i < x (i + 1)

theorem linear_fits (s : Spl K) (n : Nat) (x y : Nat → K) (hn : 3 ≤ n) (hx : Increasing n x) :
    Fits (setLinear s n x y) := by
  refine ⟨show 2 ≤ n by omega, hx, ?_, rfl⟩
  intro i hi
  change i + 1 < n at hi
  have h : x (i + 1) - x i ≠ 0 := (sub_pos.2 (hx i hi)).ne'
  simp only [setLinear]
  rw [if_neg (by omega)]
  field_simp
  ring

theorem coeffs_fit (s : Spl K) (h2 : 2 ≤ s.n) (hx : Increasing s.n s.x) (hd : s.d (s.n - 1) = 0) :
    Fits (setCoeffsFromB s) ∧ Fits1 (setCoeffsFromB s) := by
  refine ⟨⟨h2, hx, ?_, ?_⟩, ?_⟩
  · intro i hi
    change i + 1 < s.n at hi
    have h : s.x (i + 1) - s.x i ≠ 0 := (sub_pos.2 (hx i hi)).ne'
    simp only [setCoeffsFromB]
    rw [if_pos (by omega), if_pos (by omega)]
    simp only [coeffC, coeffD]
    field_simp
    ring
  · simp only [setCoeffsFromB]
    rw [if_neg (by omega), hd]
  · intro i hi
    change i + 1 < s.n at hi
    have h : s.x (i + 1) - s.x i ≠ 0 := (sub_pos.2 (hx i hi)).ne'
    simp only [setCoeffsFromB]
    rw [if_pos (by omega), if_pos (by omega)]
    simp only [coeffC, coeffD]
    field_simp
    ring

theorem hermite_fits (s : Spl K) (n : Nat) (x y : Nat → K) (hn : 3 ≤ n) (hx : Increasing n x) :
    Fits (setHermite s n x y) ∧ Fits1 (setHermite s n x y) :=
  coeffs_fit _ (show 2 ≤ n by omega) hx rfl

theorem setPoints_fits (s : Spl K) (n : Nat) (x y : Nat → K) (type : SplineType) (hn : 3 ≤ n)
    (hx : Increasing n x) : Fits (setPoints s n x y type) := by
  cases type
  · exact linear_fits s n x y hn hx
  · exact cspline_fits s n x y hn hx
  · exact (hermite_fits s n x y hn hx).1

theorem setPoints_n (s : Spl K) (n : Nat) (x y : Nat → K) (type : SplineType) :
    (setPoints s n x y type).n = n ∧ (setPoints s n x y type).x = x ∧
      (setPoints s n x y type).y = y := by
  cases type <;> exact ⟨rfl, rfl, rfl⟩

/-- Every spline passes through its points. -/
theorem C64_interpolates (s : Spl K) (n : Nat) (x y : Nat → K) (type : SplineType)
    (hp : Spec.Points s n x) (i : Nat) (hi : i < n) :
    eval (setPoints s n x y type) (x i) = y i := by
  have f := setPoints_fits s n x y type hp.three hp.incr
  obtain ⟨e1, e2, e3⟩ := setPoints_n s n x y type
  have h3 := hp.three
  by_cases h : i + 1 < n
  · have := eval_piece _ f i (by rw [e1]; exact h) (x i) (by rw [e2]) (by rw [e2]; exact (hp.incr i h).le)
    rw [this, e2, e3]
    simp
  · obtain rfl : i = n - 1 := by omega
    have := eval_right _ f (x (n - 1)) (by rw [e2, e1])
    rw [this, e1, e2, e3]
    simp

/-- A linear spline is the straight line between neighbouring points and continues the first and
last line outside. -/
theorem C64_linear (s : Spl K) (n : Nat) (x y : Nat → K) (hp : Spec.Points s n x) (t : K) :
    (∀ i, i + 1 < n → x i ≤ t → t ≤ x (i + 1) →
      eval (setPoints s n x y .linear) t = y i + (y (i + 1) - y i) / (x (i + 1) - x i) * (t - x i)) ∧
    (t ≤ x 0 → eval (setPoints s n x y .linear) t
      = y 0 + (y 1 - y 0) / (x 1 - x 0) * (t - x 0)) ∧
    (x (n - 1) ≤ t → eval (setPoints s n x y .linear) t
      = y (n - 1) + (y (n - 1) - y (n - 2)) / (x (n - 1) - x (n - 2)) * (t - x (n - 1))) := by
  have h3 := hp.three
  have f := linear_fits s n x y hp.three hp.incr
  refine ⟨fun i hi h1 h2 => ?_, fun h => ?_, fun h => ?_⟩
  · rw [setPoints, eval_piece _ f i hi t h1 h2]
    simp only [setLinear]
    rw [if_neg (by omega)]
    ring
  · rw [setPoints, eval_left _ f t h]
    simp only [setLinear]
    rw [if_neg (by omega)]
    ring
  · rw [setPoints, eval_right _ f t h]
    simp only [setLinear, if_true]
    rw [show n - 2 + 1 = n - 1 by omega]
    ring

/-- A spline whose pieces fit together is differentiable. -/
theorem hasDerivAt_eval (S : Spl ℝ) (f : Fits S) (f1 : Fits1 S) (t : ℝ) :
    HasDerivAt (eval S) (deriv S 1 t) t := by
  have h2 := f.two
  have hx := f.incr
  -- the three kinds of pieces
  have dl : ∀ t, HasDerivAt (fun t => (S.c0 * (t - S.x 0) + S.b 0) * (t - S.x 0) + S.y 0)
      (2 * S.c0 * (t - S.x 0) + S.b 0) t := by
    intro t
    have := hasDerivAt_cubic 0 S.c0 (S.b 0) (S.y 0) (S.x 0) t
    simpa using this
  have dr : ∀ t, HasDerivAt (fun t => (S.c (S.n - 1) * (t - S.x (S.n - 1)) + S.b (S.n - 1))
      * (t - S.x (S.n - 1)) + S.y (S.n - 1))
      (2 * S.c (S.n - 1) * (t - S.x (S.n - 1)) + S.b (S.n - 1)) t := by
    intro t
    have := hasDerivAt_cubic 0 (S.c (S.n - 1)) (S.b (S.n - 1)) (S.y (S.n - 1)) (S.x (S.n - 1)) t
    simpa using this
  rcases lt_trichotomy t (S.x 0) with h | h | h
  · have e := deriv1_left S f f1 t h.le
    rw [e]
    exact glue (l := t - 1) (r := S.x 0) (by linarith) h
      (fun u _ hu => eval_left S f u (by linarith)) (fun u _ hu => eval_left S f u hu) (dl t) (dl t)
  · have e := deriv1_left S f f1 t h.le
    have e' := deriv1_piece S f f1 0 (by omega) t h.ge (by rw [h]; exact (hx 0 (by omega)).le)
    refine glue (l := t - 1) (r := S.x 1) (by linarith) (by rw [h]; exact hx 0 (by omega))
      (fun u _ hu => eval_left S f u (by linarith))
      (fun u hu hu' => eval_piece S f 0 (by omega) u (by linarith) hu') ?_ ?_
    · rw [e]; exact dl t
    · rw [e']; exact hasDerivAt_cubic _ _ _ _ _ t
  rcases lt_trichotomy t (S.x (S.n - 1)) with h' | h' | h'
  · obtain ⟨i, hi, h1, h2'⟩ := exists_piece hx h2 h.le h'
    have e := deriv1_piece S f f1 i hi t h1 h2'.le
    rcases eq_or_lt_of_le h1 with h1 | h1
    · have hi0 : i ≠ 0 := by rintro rfl; linarith
      have hlt := hx (i - 1) (by omega)
      rw [show i - 1 + 1 = i by omega] at hlt
      have e' := deriv1_piece S f f1 (i - 1) (by omega) t (by linarith)
        (by rw [show i - 1 + 1 = i by omega]; exact h1.ge)
      refine glue (l := S.x (i - 1)) (r := S.x (i + 1)) (by linarith) h2'
        (fun u hu hu' => eval_piece S f (i - 1) (by omega) u hu
          (by rw [show i - 1 + 1 = i by omega, h1]; exact hu'))
        (fun u hu hu' => eval_piece S f i hi u (by linarith) hu') ?_ ?_
      · rw [e']; exact hasDerivAt_cubic _ _ _ _ _ t
      · rw [e]; exact hasDerivAt_cubic _ _ _ _ _ t
    · rw [e]
      exact glue (l := S.x i) (r := S.x (i + 1)) h1 h2'
        (fun u hu hu' => eval_piece S f i hi u hu (by linarith))
        (fun u hu hu' => eval_piece S f i hi u (by linarith) hu')
        (hasDerivAt_cubic _ _ _ _ _ t) (hasDerivAt_cubic _ _ _ _ _ t)
  · have hlt := hx (S.n - 2) (by omega)
    rw [show S.n - 2 + 1 = S.n - 1 by omega] at hlt
    have e := deriv1_right S f t h'.ge
    have e' := deriv1_piece S f f1 (S.n - 2) (by omega) t (by linarith)
      (by rw [show S.n - 2 + 1 = S.n - 1 by omega]; exact h'.le)
    refine glue (l := S.x (S.n - 2)) (r := t + 1) (by linarith) (by linarith)
      (fun u hu hu' => eval_piece S f (S.n - 2) (by omega) u hu
        (by rw [show S.n - 2 + 1 = S.n - 1 by omega]; linarith))
      (fun u hu hu' => eval_right S f u (by linarith)) ?_ ?_
    · rw [e']; exact hasDerivAt_cubic _ _ _ _ _ t
    · rw [e]; exact dr t
  · rw [deriv1_right S f t h'.le]
    exact glue (l := S.x (S.n - 1)) (r := t + 1) h' (by linarith)
      (fun u hu hu' => eval_right S f u hu) (fun u hu hu' => eval_right S f u (by linarith))
      (dr t) (dr t)

/-- `deriv` of order one is the derivative, everywhere. -/
theorem C64_derivative (s : Spl ℝ) (n : Nat) (x y : Nat → ℝ) (type : SplineType)
    (hp : Spec.Points s n x) (ht : type ≠ .linear) (t : ℝ) :
    HasDerivAt (eval (setPoints s n x y type)) (deriv (setPoints s n x y type) 1 t) t := by
  have f := setPoints_fits s n x y type hp.three hp.incr
  have f1 : Fits1 (setPoints s n x y type) := by
    cases type
    · exact absurd rfl ht
    · exact cspline_fits1 s n x y hp.three (fun h => hp.four (Or.inr h)) hp.incr
    · exact (hermite_fits s n x y hp.three hp.incr).2
  exact hasDerivAt_eval _ f f1 t

/-- `deriv` of order two of a classical cubic spline is the derivative of that of order one,
everywhere except at an end with a given slope, where the extrapolation is a straight line. -/
theorem C64_second_derivative (s : Spl ℝ) (n : Nat) (x y : Nat → ℝ)
    (hp : Spec.Points s n x) (t : ℝ) (hl : s.left = .first → t ≠ x 0)
    (hr : s.right = .first → t ≠ x (n - 1)) :
    HasDerivAt (deriv (setPoints s n x y .cspline) 1) (deriv (setPoints s n x y .cspline) 2 t) t := by
  have h3 := hp.three
  have hx := hp.incr
  have f := cspline_fits s n x y hp.three hp.incr
  have f1 := cspline_fits1 s n x y hp.three (fun h => hp.four (Or.inr h)) hp.incr
  have f2 := cspline_fits2 s n x y hp.three hp.incr
  have hc0 : s.left ≠ .first → (setCspline s n x y).c0 = (setCspline s n x y).c 0 := by
    intro h; simp [setCspline, h]
  simp only [setPoints]
  have en : (setCspline s n x y).n = n := rfl
  have ex : (setCspline s n x y).x = x := rfl
  generalize setCspline s n x y = S at f f1 f2 hc0 en ex
  subst en
  subst ex
  have h2 := f.two
  have dl : ∀ t, HasDerivAt (fun t => 2 * S.c0 * (t - S.x 0) + S.b 0) (2 * S.c0) t := by
    intro t
    have := hasDerivAt_quad 0 S.c0 (S.b 0) (S.x 0) t
    simpa using this
  have dr : ∀ t, HasDerivAt (fun t => 2 * S.c (S.n - 1) * (t - S.x (S.n - 1)) + S.b (S.n - 1))
      (2 * S.c (S.n - 1)) t := by
    intro t
    have := hasDerivAt_quad 0 (S.c (S.n - 1)) (S.b (S.n - 1)) (S.x (S.n - 1)) t
    simpa using this
  rcases lt_trichotomy t (S.x 0) with h | h | h
  · have e := deriv2_left S f t h
    rw [e]
    exact glue (l := t - 1) (r := S.x 0) (by linarith) h
      (fun u _ hu => deriv1_left S f f1 u (by linarith)) (fun u _ hu => deriv1_left S f f1 u hu)
      (dl t) (dl t)
  · have e' := deriv2_piece S f 0 (by omega) t h.ge (by rw [h]; exact hx 0 (by omega))
    have hc := hc0 (fun hf => hl hf h)
    refine glue (l := t - 1) (r := S.x 1) (by linarith) (by rw [h]; exact hx 0 (by omega))
      (fun u _ hu => deriv1_left S f f1 u (by linarith))
      (fun u hu hu' => deriv1_piece S f f1 0 (by omega) u (by linarith) hu') ?_ ?_
    · rw [e', ← hc]
      refine (dl t).congr_deriv ?_
      rw [h]; ring
    · rw [e']; exact hasDerivAt_quad _ _ _ _ t
  rcases lt_trichotomy t (S.x (S.n - 1)) with h' | h' | h'
  · obtain ⟨i, hi, h1, h2'⟩ := exists_piece hx h2 h.le h'
    have e := deriv2_piece S f i hi t h1 h2'
    rcases eq_or_lt_of_le h1 with h1 | h1
    · have hi0 : i ≠ 0 := by rintro rfl; linarith
      have hlt := hx (i - 1) (by omega)
      have f2' := f2 (i - 1) (by omega) (by omega)
      rw [show i - 1 + 1 = i by omega] at hlt f2'
      refine glue (l := S.x (i - 1)) (r := S.x (i + 1)) (by linarith) h2'
        (fun u hu hu' => deriv1_piece S f f1 (i - 1) (by omega) u hu
          (by rw [show i - 1 + 1 = i by omega, h1]; exact hu'))
        (fun u hu hu' => deriv1_piece S f f1 i hi u (by linarith) hu') ?_ ?_
      · rw [e]
        refine (hasDerivAt_quad _ _ _ _ t).congr_deriv ?_
        rw [← h1, ← f2']; ring
      · rw [e]; exact hasDerivAt_quad _ _ _ _ t
    · rw [e]
      exact glue (l := S.x i) (r := S.x (i + 1)) h1 h2'
        (fun u hu hu' => deriv1_piece S f f1 i hi u hu (by linarith))
        (fun u hu hu' => deriv1_piece S f f1 i hi u (by linarith) hu')
        (hasDerivAt_quad _ _ _ _ t) (hasDerivAt_quad _ _ _ _ t)
  · have hlt := hx (S.n - 2) (by omega)
    have f2' := f2 (S.n - 2) (by omega) (fun hf => absurd h' (hr hf))
    rw [show S.n - 2 + 1 = S.n - 1 by omega] at hlt f2'
    have e := deriv2_right S f t h'.ge
    refine glue (l := S.x (S.n - 2)) (r := t + 1) (by linarith) (by linarith)
      (fun u hu hu' => deriv1_piece S f f1 (S.n - 2) (by omega) u hu
        (by rw [show S.n - 2 + 1 = S.n - 1 by omega]; linarith))
      (fun u hu hu' => deriv1_right S f u (by linarith)) ?_ ?_
    · rw [e]
      refine (hasDerivAt_quad _ _ _ _ t).congr_deriv ?_
      rw [h', ← f2']; ring
    · rw [e]; exact dr t
  · rw [deriv2_right S f t h'.le]
    exact glue (l := S.x (S.n - 1)) (r := t + 1) h' (by linarith)
      (fun u hu hu' => deriv1_right S f u hu) (fun u hu hu' => deriv1_right S f u (by linarith))
      (dr t) (dr t)

/-- `deriv` of order three is the derivative of that of order two inside the pieces; higher orders
vanish. -/
theorem C64_higher_derivatives (s : Spl ℝ) (n : Nat) (x y : Nat → ℝ) (type : SplineType)
    (hp : Spec.Points s n x) (t : ℝ) :
    (∀ i, i + 1 < n → x i < t → t < x (i + 1) →
      HasDerivAt (deriv (setPoints s n x y type) 2) (deriv (setPoints s n x y type) 3 t) t) ∧
    (t < x 0 ∨ x (n - 1) < t → HasDerivAt (deriv (setPoints s n x y type) 2)
      (deriv (setPoints s n x y type) 3 t) t) ∧
    ∀ order, 4 ≤ order → deriv (setPoints s n x y type) order t = 0 := by
  have h3 := hp.three
  have f := setPoints_fits s n x y type hp.three hp.incr
  obtain ⟨e1, e2, -⟩ := setPoints_n s n x y type
  generalize setPoints s n x y type = S at f e1 e2
  subst e1
  subst e2
  refine ⟨fun i hi h1 h2 => ?_, fun h => ?_, fun order ho => ?_⟩
  · rw [deriv3_piece S f i hi t h1.le h2]
    have hd : HasDerivAt (fun u => 6 * S.d i * (u - S.x i) + 2 * S.c i) (6 * S.d i) t := by
      have := (((hasDerivAt_id' t).sub_const (S.x i)).const_mul (6 * S.d i)).add_const (2 * S.c i)
      simpa using this
    refine hd.congr_of_eventuallyEq ?_
    filter_upwards [Ioo_mem_nhds h1 h2] with u hu
    exact deriv2_piece S f i hi u hu.1.le hu.2
  · rcases h with h | h
    · have e : deriv S 3 t = 0 := by simp [deriv, h]
      rw [e]
      refine (hasDerivAt_const t (2 * S.c0)).congr_of_eventuallyEq ?_
      filter_upwards [Iio_mem_nhds h] with u hu
      exact deriv2_left S f u hu
    · have hnl : ¬ t < S.x 0 := not_lt.2 (le_trans (f.incr.le (by omega) (by omega)) h.le)
      have e : deriv S 3 t = 0 := by simp [deriv, h, hnl]
      rw [e]
      refine (hasDerivAt_const t (2 * S.c (S.n - 1))).congr_of_eventuallyEq ?_
      filter_upwards [Ioi_mem_nhds h] with u hu
      exact deriv2_right S f u (le_of_lt hu)
  · simp only [deriv]
    rw [if_neg (show order ≠ 1 by omega), if_neg (show order ≠ 2 by omega),
      if_neg (show order ≠ 1 by omega), if_neg (show order ≠ 2 by omega),
      if_neg (show order ≠ 1 by omega), if_neg (show order ≠ 2 by omega),
      if_neg (show order ≠ 3 by omega)]
    simp

/-- The boundary condition on the right of a classical cubic spline. -/
theorem C64_boundary_right (s : Spl K) (n : Nat) (x y : Nat → K) (hp : Spec.Points s n x) :
    (s.right = .first → deriv (setPoints s n x y .cspline) 1 (x (n - 1)) = s.rightValue) ∧
    (s.right = .second → deriv (setPoints s n x y .cspline) 2 (x (n - 1)) = s.rightValue) ∧
    (s.right = .notAKnot → ∀ t u, x (n - 3) ≤ t → t < x (n - 1) → x (n - 3) ≤ u → u < x (n - 1) →
      deriv (setPoints s n x y .cspline) 3 t = deriv (setPoints s n x y .cspline) 3 u) := by
  have h3 := hp.three
  have h4 : s.right = .notAKnot → 4 ≤ n := fun h => hp.four (Or.inr h)
  have hx : Increasing n x := hp.incr
  have f := cspline_fits s n x y hp.three hp.incr
  have f1 := cspline_fits1 s n x y hp.three h4 hp.incr
  obtain ⟨hb, hc, hd⟩ := cspline_data s n x y h3
  obtain ⟨r1, r2, r3⟩ := row_last s n x y h3 h4 hx
  have hlt := hx (n - 2) (by omega)
  rw [show n - 2 + 1 = n - 1 by omega] at hlt
  have hne : x (n - 1) - x (n - 2) ≠ 0 := (sub_pos.2 hlt).ne'
  refine ⟨fun h => ?_, fun h => ?_, fun h => ?_⟩
  · have e := deriv1_right _ f (x (n - 1)) le_rfl
    change deriv (setCspline s n x y) 1 (x (n - 1)) = 2 * (setCspline s n x y).c (n - 1)
      * (x (n - 1) - x (n - 1)) + (setCspline s n x y).b (n - 1) at e
    rw [setPoints, e, sub_self, mul_zero, zero_add]
    have e1 := f1 (n - 2) (show n - 2 + 1 < n by omega)
    rw [show n - 2 + 1 = n - 1 by omega] at e1
    rw [← e1, hb (n - 2) (by omega), hc (n - 2) (by omega), hd (n - 2) (by omega),
      show n - 2 + 1 = n - 1 by omega]
    change (3 * (1 / 3 * (coeffs s n x y (n - 1) - coeffs s n x y (n - 2)) / (x (n - 1) - x (n - 2)))
      * (x (n - 1) - x (n - 2)) + 2 * coeffs s n x y (n - 2)) * (x (n - 1) - x (n - 2))
      + csplineB x y (coeffs s n x y) (n - 2) = s.rightValue
    have r2 := r2 h
    simp only [csplineB, show n - 2 + 1 = n - 1 by omega]
    rw [show 3 * (1 / 3 * (coeffs s n x y (n - 1) - coeffs s n x y (n - 2))
      / (x (n - 1) - x (n - 2))) * (x (n - 1) - x (n - 2))
      = coeffs s n x y (n - 1) - coeffs s n x y (n - 2) by field_simp]
    linear_combination r2 / 3
  · have e := deriv2_right _ f (x (n - 1)) le_rfl
    rw [setPoints, e, ← r1 h]
    simp [setCspline, coeffs, h]
  · have r3 := r3 h
    have h4 := h4 h
    have hlt2 := hx (n - 3) (by omega)
    rw [show n - 3 + 1 = n - 2 by omega] at hlt2
    have hne2 : x (n - 2) - x (n - 3) ≠ 0 := (sub_pos.2 hlt2).ne'
    have key : ∀ t, x (n - 3) ≤ t → t < x (n - 1) →
        deriv (setPoints s n x y .cspline) 3 t = 6 * (setCspline s n x y).d (n - 3) := by
      intro t h1 h2
      rcases lt_or_ge t (x (n - 2)) with h' | h'
      · exact deriv3_piece _ f (n - 3) (show n - 3 + 1 < n by omega) t h1
          (by rw [show n - 3 + 1 = n - 2 by omega]; exact h')
      · have e := deriv3_piece _ f (n - 2) (show n - 2 + 1 < n by omega) t h'
          (by rw [show n - 2 + 1 = n - 1 by omega]; exact h2)
        rw [setPoints, e, hd (n - 3) (by omega), hd (n - 2) (by omega),
          show n - 2 + 1 = n - 1 by omega, show n - 3 + 1 = n - 2 by omega]
        field_simp
        linear_combination (-1 : K) * r3
    intro t u h1 h2 h1' h2'
    rw [key t h1 h2, key u h1' h2']

/-- The boundary condition on the left of a classical cubic spline, if the right one is not
not-a-knot or the left one is. -/
theorem C64_boundary_left_partial (s : Spl K) (n : Nat) (x y : Nat → K) (hp : Spec.Points s n x) :
    (s.left = .first → s.right ≠ .notAKnot →
      deriv (setPoints s n x y .cspline) 1 (x 0) = s.leftValue) ∧
    (s.left = .second → s.right ≠ .notAKnot →
      deriv (setPoints s n x y .cspline) 2 (x 0) = s.leftValue) ∧
    (s.left = .notAKnot → ∀ t u, x 0 ≤ t → t < x 2 → x 0 ≤ u → u < x 2 →
      deriv (setPoints s n x y .cspline) 3 t = deriv (setPoints s n x y .cspline) 3 u) := by
  have h3 := hp.three
  have h4 : s.right = .notAKnot → 4 ≤ n := fun h => hp.four (Or.inr h)
  have hx : Increasing n x := hp.incr
  have f := cspline_fits s n x y hp.three hp.incr
  have f1 := cspline_fits1 s n x y hp.three h4 hp.incr
  obtain ⟨hb, hc, hd⟩ := cspline_data s n x y h3
  obtain ⟨r1, r2, r3⟩ := row_first s n x y h3 h4 hx
  have hlt := hx 0 (by omega)
  have hne : x 1 - x 0 ≠ 0 := (sub_pos.2 hlt).ne'
  refine ⟨fun h hnr => ?_, fun h hnr => ?_, fun h => ?_⟩
  · have e := deriv1_left _ f f1 (x 0) le_rfl
    change deriv (setCspline s n x y) 1 (x 0) = 2 * (setCspline s n x y).c0
      * (x 0 - x 0) + (setCspline s n x y).b 0 at e
    rw [setPoints, e, sub_self, mul_zero, zero_add, hb 0 (by omega)]
    have r2 := r2 h
    have hr : rhs s n x y 0 = 3 * ((y 1 - y 0) / (x 1 - x 0) - s.leftValue) := by
      simp [rhs, h, hnr]
    rw [hr] at r2
    simp only [csplineB]
    linear_combination (-1 / 3 : K) * r2
  · have e := deriv2_piece _ f 0 (show 0 + 1 < n by omega) (x 0) le_rfl hlt
    change deriv (setCspline s n x y) 2 (x 0) = 6 * (setCspline s n x y).d 0
      * (x 0 - x 0) + 2 * (setCspline s n x y).c 0 at e
    rw [setPoints, e, sub_self, mul_zero, zero_add, hc 0 (by omega), r1 h]
    simp [rhs, h, hnr]
  · have r3 := r3 h
    have hlt2 := hx 1 (by omega)
    have hne2 : x 2 - x 1 ≠ 0 := (sub_pos.2 hlt2).ne'
    have hr : rhs s n x y 0 = 0 := by simp [rhs, h]
    rw [hr] at r3
    have key : ∀ t, x 0 ≤ t → t < x 2 →
        deriv (setPoints s n x y .cspline) 3 t = 6 * (setCspline s n x y).d 0 := by
      intro t h1 h2
      rcases lt_or_ge t (x 1) with h' | h'
      · exact deriv3_piece _ f 0 (show 0 + 1 < n by omega) t h1 h'
      · have e := deriv3_piece _ f 1 (show 1 + 1 < n by omega) t h' h2
        rw [setPoints, e, hd 0 (by omega), hd 1 (by omega)]
        simp only [Nat.reduceAdd, zero_add]
        field_simp
        linear_combination (-1 : K) * r3
    intro t u h1 h2 h1' h2'
    rw [key t h1 h2, key u h1' h2']

/-- With a not-a-knot condition on the right the condition given for the left end is dropped: the
code clears the wrong element of the right hand side. -/
theorem C64_boundary_left_dropped (s : Spl K) (n : Nat) (x y : Nat → K) (hp : Spec.Points s n x)
    (hr : s.right = .notAKnot) :
    (s.left = .first → deriv (setPoints s n x y .cspline) 1 (x 0) = (y 1 - y 0) / (x 1 - x 0)) ∧
    (s.left = .second → deriv (setPoints s n x y .cspline) 2 (x 0) = 0) := by
  have h3 := hp.three
  have h4 : s.right = .notAKnot → 4 ≤ n := fun h => hp.four (Or.inr h)
  have hx : Increasing n x := hp.incr
  have f := cspline_fits s n x y hp.three hp.incr
  have f1 := cspline_fits1 s n x y hp.three h4 hp.incr
  obtain ⟨hb, hc, hd⟩ := cspline_data s n x y h3
  obtain ⟨r1, r2, r3⟩ := row_first s n x y h3 h4 hx
  have hlt := hx 0 (by omega)
  have hz : rhs s n x y 0 = 0 := by simp [rhs, hr]
  refine ⟨fun h => ?_, fun h => ?_⟩
  · have e := deriv1_left _ f f1 (x 0) le_rfl
    change deriv (setCspline s n x y) 1 (x 0) = 2 * (setCspline s n x y).c0
      * (x 0 - x 0) + (setCspline s n x y).b 0 at e
    rw [setPoints, e, sub_self, mul_zero, zero_add, hb 0 (by omega)]
    have r2 := r2 h
    rw [hz] at r2
    simp only [csplineB, zero_add]
    linear_combination (-1 / 3 : K) * r2
  · have e := deriv2_piece _ f 0 (show 0 + 1 < n by omega) (x 0) le_rfl hlt
    change deriv (setCspline s n x y) 2 (x 0) = 6 * (setCspline s n x y).d 0
      * (x 0 - x 0) + 2 * (setCspline s n x y).c 0 at e
    rw [setPoints, e, sub_self, mul_zero, zero_add, hc 0 (by omega), r1 h, hz]

/-- So a slope given for the left end need not be the slope of the spline. -/
theorem C64_boundary_left_fails : ∃ (s : Spl ℚ) (x y : Nat → ℚ), Spec.Points s 4 x ∧
    s.left = .first ∧ deriv (setPoints s 4 x y .cspline) 1 (x 0) ≠ s.leftValue := by
  refine ⟨{ fresh ℚ with left := .first, leftValue := 1, right := .notAKnot }, fun i => i,
    fun _ => 0, ⟨by norm_num, fun _ => le_rfl, ?_⟩, rfl, ?_⟩
  · intro i _; exact_mod_cast Nat.lt_succ_self i
  · rw [(C64_boundary_left_dropped _ 4 _ _ ⟨by norm_num, fun _ => le_rfl, by
      intro i _; exact_mod_cast Nat.lt_succ_self i⟩ rfl).1 rfl]
    norm_num

/-- The equations have only one solution. -/
theorem coeffs_unique (s : Spl K) (n : Nat) (x y c : Nat → K) (hn : 3 ≤ n)
    (h4 : s.right = .notAKnot → 4 ≤ n) (hx : Increasing n x)
    (hc : ∀ i < n, ∑ j ∈ Finset.range n, matrix s n x i j * c j = rhs s n x y i) (j : Nat)
    (hj : j < n) : coeffs s n x y j = c j := by
  let M : Matrix (Fin n) (Fin n) K := fun i j => matrix s n x i j
  have hM : ∀ (v : Nat → K) (i : Fin n), Matrix.mulVec M (fun j : Fin n => v j) i
      = ∑ j ∈ Finset.range n, matrix s n x i j * v j := by
    intro v i
    rw [Finset.sum_range]
    rfl
  have hsurj : Function.Surjective (Matrix.mulVecLin M) := by
    intro b
    refine ⟨fun j : Fin n => luSolve (system s n x) (fun i => if h : i < n then b ⟨i, h⟩ else 0) j, ?_⟩
    funext i
    rw [Matrix.mulVecLin_apply, hM]
    have := luSolve_solves (system s n x) (system_band s n x hn) (system_diag s n x hn hx)
      (pivot_ne_zero s n x hn h4 hx) (fun i => if h : i < n then b ⟨i, h⟩ else 0) i.1 i.2
    refine Eq.trans this ?_
    simp
  have hinj := (LinearMap.injective_iff_surjective (f := Matrix.mulVecLin M)).2 hsurj
  have : (fun j : Fin n => coeffs s n x y j) = fun j : Fin n => c j := by
    apply hinj
    funext i
    rw [Matrix.mulVecLin_apply, Matrix.mulVecLin_apply, hM, hM]
    rw [hc i i.2]
    exact cspline_solves s n x y hn h4 hx i i.2
  exact congrFun this ⟨j, hj⟩

/-- The coefficients of the cubic spline through points of a cubic polynomial whose boundary values are
those of the polynomial. -/
theorem reproduces_data (s : Spl K) (n : Nat) (x y : Nat → K) (hp : Spec.Points s n x) (a0 a1 a2 a3 : K)
    (hy : ∀ i < n, y i = a0 + a1 * x i + a2 * x i ^ 2 + a3 * x i ^ 3)
    (hl1 : s.left = .first → s.leftValue = a1 + 2 * a2 * x 0 + 3 * a3 * x 0 ^ 2)
    (hl2 : s.left = .second → s.leftValue = 2 * a2 + 6 * a3 * x 0)
    (hr1 : s.right = .first → s.rightValue = a1 + 2 * a2 * x (n - 1) + 3 * a3 * x (n - 1) ^ 2)
    (hr2 : s.right = .second → s.rightValue = 2 * a2 + 6 * a3 * x (n - 1))
    (hr3 : s.right = .notAKnot → s.left = .notAKnot) :
    (∀ i, i + 1 < n →
      (setCspline s n x y).b i
        = a1 + 2 * a2 * x i + 3 * a3 * x i ^ 2 ∧
      (setCspline s n x y).c i
        = a2 + 3 * a3 * x i ∧
      (setCspline s n x y).d i = a3) ∧
    (s.right ≠ .first →
      (setCspline s n x y).c (n - 1)
        = a2 + 3 * a3 * x (n - 1)) := by
  have h3 := hp.three
  have h4 : s.right = .notAKnot → 4 ≤ n := fun h => hp.four (Or.inr h)
  have hx : Increasing n x := hp.incr
  have hslope : ∀ i, i + 1 < n → (y (i + 1) - y i) / (x (i + 1) - x i)
      = a1 + a2 * (x (i + 1) + x i) + a3 * (x (i + 1) ^ 2 + x (i + 1) * x i + x i ^ 2) := by
    intro i hi
    have : x (i + 1) - x i ≠ 0 := (sub_pos.2 (hx i hi)).ne'
    rw [div_eq_iff this]
    rw [hy (i + 1) hi, hy i (by omega)]
    ring
  have hc : ∀ j < n, coeffs s n x y j = a2 + 3 * a3 * x j := by
    intro j hj
    refine coeffs_unique s n x y (fun j => a2 + 3 * a3 * x j) h3 h4 hx ?_ j hj
    intro i hi
    rcases Nat.eq_zero_or_pos i with rfl | h0
    · obtain ⟨m, rfl⟩ : ∃ m, n = m + 3 := ⟨n - 3, by omega⟩
      rw [Finset.sum_range_succ', Finset.sum_range_succ', Finset.sum_range_succ']
      have hz : ∀ j, matrix s (m + 3) x 0 (j + 1 + 1 + 1) = 0 := by
        intro j
        apply system_band s (m + 3) x h3 0
        right
        have : (system s (m + 3) x).nu ≤ 2 := by simp only [system]; split_ifs <;> omega
        omega
      simp only [hz, zero_mul, Finset.sum_const_zero, zero_add, Nat.reduceAdd]
      cases hl : s.left with
      | first =>
        have hnr : s.right ≠ .notAKnot := fun h => by simp [hr3 h] at hl
        have hs0 := hslope 0 (by omega)
        rw [zero_add] at hs0
        simp only [matrix, rhs, hl, hnr, if_true, if_false, hs0, hl1 hl, one_ne_zero,
          OfNat.ofNat_ne_zero, OfNat.ofNat_ne_one]
        ring
      | second =>
        have hnr : s.right ≠ .notAKnot := fun h => by simp [hr3 h] at hl
        simp only [matrix, rhs, hl, hnr, if_true, if_false, hl2 hl, one_ne_zero,
          OfNat.ofNat_ne_zero]
        ring
      | notAKnot =>
        simp only [matrix, rhs, hl, if_true, if_false, one_ne_zero, OfNat.ofNat_ne_zero,
          OfNat.ofNat_ne_one, ite_self]
        ring
    · by_cases hlast : i = n - 1
      · subst hlast
        obtain ⟨m, rfl⟩ : ∃ m, n = m + 3 := ⟨n - 3, by omega⟩
        rw [Finset.sum_range_succ, Finset.sum_range_succ, Finset.sum_range_succ]
        have hz : ∀ j < m, matrix s (m + 3) x (m + 2) j = 0 := by
          intro j hj
          apply system_band s (m + 3) x h3 (m + 2)
          left
          have : (system s (m + 3) x).nl ≤ 2 := by simp only [system]; split_ifs <;> omega
          omega
        simp only [show m + 3 - 1 = m + 2 by omega] at hr1 hr2 ⊢
        rw [Finset.sum_eq_zero (by
          intro j hj; rw [Finset.mem_range] at hj; rw [hz j hj, zero_mul]), zero_add]
        have hs0 := hslope (m + 1) (by omega)
        simp only [show m + 1 + 1 = m + 2 by omega] at hs0
        cases hl : s.right with
        | first =>
          simp only [matrix, rhs, hl, if_true, if_false, show m + 3 - 1 = m + 2 by omega,
            show m + 3 - 2 = m + 1 by omega, hr1 hl, hs0]
          simp
          ring
        | second =>
          simp only [matrix, rhs, hl, if_true, if_false, show m + 3 - 1 = m + 2 by omega, hr2 hl]
          simp
          ring
        | notAKnot =>
          simp only [matrix, rhs, hl, if_true, if_false, show m + 3 - 1 = m + 2 by omega,
            show m + 3 - 2 = m + 1 by omega, show m + 3 - 3 = m by omega]
          simp
          ring
      · have hi1 : i + 1 < n := by omega
        have hm : ∀ j, matrix s n x i j = (if j + 1 = i then 1 / 3 * (x i - x (i - 1))
            else if j = i then 2 / 3 * (x (i + 1) - x (i - 1))
            else if j = i + 1 then 1 / 3 * (x (i + 1) - x i) else 0) := by
          intro j
          simp only [matrix]
          rw [if_neg (by omega), if_neg (by omega), if_pos (by omega)]
        simp only [hm]
        rw [sum_three i (by omega) hi1]
        have hr : rhs s n x y i
            = (y (i + 1) - y i) / (x (i + 1) - x i) - (y i - y (i - 1)) / (x i - x (i - 1)) := by
          simp only [rhs]
          rw [if_neg (by omega), if_neg (by omega)]
        have hs2 := hslope (i - 1) (by omega)
        rw [show i - 1 + 1 = i by omega] at hs2
        rw [hr, hslope i hi1, hs2]
        ring
  obtain ⟨hb, hcc, hd⟩ := cspline_data s n x y h3
  refine ⟨fun i hi => ?_, fun h => ?_⟩
  · have hne : x (i + 1) - x i ≠ 0 := (sub_pos.2 (hx i hi)).ne'
    refine ⟨?_, ?_, ?_⟩
    · rw [hb i hi]
      simp only [csplineB]
      rw [hslope i hi, hc i (by omega), hc (i + 1) hi]
      ring
    · rw [hcc i hi, hc i (by omega)]
    · rw [hd i hi, hc i (by omega), hc (i + 1) hi]
      field_simp
      ring
  · rw [← hc (n - 1) (by omega)]
    simp [setCspline, coeffs, h]

/-- The cubic spline through points of a cubic polynomial whose boundary values are those of the
polynomial is this polynomial between the first and last point, and so is its derivative. -/
theorem C64_reproduces (s : Spl K) (n : Nat) (x y : Nat → K) (hp : Spec.Points s n x) (a0 a1 a2 a3 : K)
    (hy : ∀ i < n, y i = a0 + a1 * x i + a2 * x i ^ 2 + a3 * x i ^ 3)
    (hl1 : s.left = .first → s.leftValue = a1 + 2 * a2 * x 0 + 3 * a3 * x 0 ^ 2)
    (hl2 : s.left = .second → s.leftValue = 2 * a2 + 6 * a3 * x 0)
    (hr1 : s.right = .first → s.rightValue = a1 + 2 * a2 * x (n - 1) + 3 * a3 * x (n - 1) ^ 2)
    (hr2 : s.right = .second → s.rightValue = 2 * a2 + 6 * a3 * x (n - 1))
    (hr3 : s.right = .notAKnot → s.left = .notAKnot) (t : K) (h1 : x 0 ≤ t) (h2 : t ≤ x (n - 1)) :
    eval (setPoints s n x y .cspline) t
      = a0 + a1 * t + a2 * t ^ 2 + a3 * t ^ 3 ∧
    deriv (setPoints s n x y .cspline) 1 t
      = a1 + 2 * a2 * t + 3 * a3 * t ^ 2 ∧
    (t < x (n - 1) ∨ s.right ≠ .first →
      deriv (setPoints s n x y .cspline) 2 t = 2 * a2 + 6 * a3 * t) := by
  have h3 := hp.three
  have hx : Increasing n x := hp.incr
  obtain ⟨hd, hcl⟩ := reproduces_data s n x y hp a0 a1 a2 a3 hy hl1 hl2 hr1 hr2 hr3
  have f := cspline_fits s n x y h3 hx
  have f1 := cspline_fits1 s n x y h3
    (fun h => hp.four (Or.inr h)) hx
  have hpiece : ∃ i, i + 1 < n ∧ x i ≤ t ∧ t ≤ x (i + 1) := by
    rcases lt_or_ge t (x (n - 1)) with h | h
    · obtain ⟨i, hi, hi1, hi2⟩ := exists_piece hx (by omega) h1 h
      exact ⟨i, hi, hi1, hi2.le⟩
    · refine ⟨n - 2, by omega, le_trans (hx.le (by omega) (by omega)) h, ?_⟩
      rw [show n - 2 + 1 = n - 1 by omega]; exact h2
  obtain ⟨i, hi, hi1, hi2⟩ := hpiece
  obtain ⟨eb, ec, ed⟩ := hd i hi
  refine ⟨?_, ?_, fun h => ?_⟩
  · rw [setPoints, eval_piece _ f i hi t hi1 hi2, eb, ec, ed]
    change ((_ * (t - x i) + _) * (t - x i) + _) * (t - x i) + y i = _
    rw [hy i (by omega)]
    ring
  · rw [setPoints, deriv1_piece _ f f1 i hi t hi1 hi2, eb, ec, ed]
    simp only [setCspline]
    ring
  · rcases lt_or_ge t (x (n - 1)) with h' | h'
    · obtain ⟨k, hk, hk1, hk2⟩ := exists_piece hx (by omega) h1 h'
      obtain ⟨-, ec, ed⟩ := hd k hk
      rw [setPoints, deriv2_piece _ f k hk t hk1 hk2, ec, ed]
      simp only [setCspline]
      ring
    · have h'' := h.resolve_left (not_lt.2 h')
      rw [setPoints, deriv2_right _ f t h']
      change 2 * (setCspline s n x y).c (n - 1) = _
      rw [hcl h'', le_antisymm h2 h']
      ring

/-- The slopes of a hermite spline at the inner points are those of the parabola through the point
and its neighbours. -/
theorem C64_hermite_slopes (s : Spl K) (n : Nat) (x y : Nat → K) (hp : Spec.Points s n x)
    (i : Nat) (h0 : 0 < i) (hi : i + 1 < n) (a0 a1 a2 : K)
    (hy : ∀ j, i ≤ j + 1 → j ≤ i + 1 → y j = a0 + a1 * x j + a2 * x j ^ 2) :
    deriv (setPoints s n x y .hermite) 1 (x i) = a1 + 2 * a2 * x i := by
  have h3 := hp.three
  have hx : Increasing n x := hp.incr
  obtain ⟨f, f1⟩ := hermite_fits s n x y h3 hx
  have e := deriv1_piece _ f f1 i hi (x i) le_rfl (hx i hi).le
  change deriv (setHermite s n x y) 1 (x i) = (3 * (setHermite s n x y).d i * (x i - x i)
    + 2 * (setHermite s n x y).c i) * (x i - x i) + (setHermite s n x y).b i at e
  rw [setPoints, e, sub_self, mul_zero, zero_add]
  have hb : (setHermite s n x y).b i = hermiteB x y i := by
    simp only [setHermite, setCoeffsFromB, setVec]
    rw [if_neg (by omega), if_neg (by omega)]
  rw [hb]
  have p1 : 0 < x i - x (i - 1) := sub_pos.2 (hx.lt (by omega) (by omega))
  have p2 : 0 < x (i + 1) - x i := sub_pos.2 (hx i hi)
  have n1 := p1.ne'
  have n2 := p2.ne'
  have n3 : x i - x (i - 1) + (x (i + 1) - x i) ≠ 0 := (add_pos p1 p2).ne'
  simp only [hermiteB]
  rw [hy i (by omega) (by omega), hy (i - 1) (by omega) (by omega), hy (i + 1) (by omega) (by omega)]
  generalize x (i - 1) = u at *
  generalize x (i + 1) = w at *
  generalize x i = v at *
  have n4 : w - u ≠ 0 := by rw [show v - u + (w - v) = w - u by ring] at n3; exact n3
  rw [show v - u + (w - v) = w - u by ring]
  field_simp
  ring

/-- The boundary conditions of a hermite spline. -/
theorem C64_hermite_boundary (s : Spl K) (n : Nat) (x y : Nat → K) (hp : Spec.Points s n x) :
    (s.left = .first → deriv (setPoints s n x y .hermite) 1 (x 0) = s.leftValue) ∧
    (s.left = .second → deriv (setPoints s n x y .hermite) 2 (x 0) = s.leftValue) ∧
    (s.left = .notAKnot → ∀ t u, x 0 ≤ t → t < x 2 → x 0 ≤ u → u < x 2 →
      deriv (setPoints s n x y .hermite) 3 t = deriv (setPoints s n x y .hermite) 3 u) ∧
    (s.right = .first → deriv (setPoints s n x y .hermite) 1 (x (n - 1)) = s.rightValue) ∧
    (s.right = .second → deriv (setPoints s n x y .hermite) 2 (x (n - 1)) = s.rightValue) ∧
    (s.right = .notAKnot → ∀ t u, x (n - 3) ≤ t → t < x (n - 1) → x (n - 3) ≤ u → u < x (n - 1) →
      deriv (setPoints s n x y .hermite) 3 t = deriv (setPoints s n x y .hermite) 3 u) := by
  have h3 := hp.three
  have hx : Increasing n x := hp.incr
  obtain ⟨f, f1⟩ := hermite_fits s n x y h3 hx
  have hne : ∀ i, i + 1 < n → x (i + 1) - x i ≠ 0 := fun i hi => (sub_pos.2 (hx i hi)).ne'
  have hc : ∀ i, i + 1 < n → (setHermite s n x y).c i = coeffC x y (setHermite s n x y).b i := by
    intro i hi
    simp only [setHermite, setCoeffsFromB]
    rw [if_pos (by omega)]
  have hd : ∀ i, i + 1 < n → (setHermite s n x y).d i = coeffD x y (setHermite s n x y).b i := by
    intro i hi
    simp only [setHermite, setCoeffsFromB]
    rw [if_pos (by omega)]
  have hb0 : (setHermite s n x y).b 0 = hermiteFirst s x y (hermiteB x y) := by
    simp only [setHermite, setCoeffsFromB, setVec]
    rw [if_neg (by omega), if_pos trivial]
  have hbl : (setHermite s n x y).b (n - 1) = hermiteLast s n x y
      (setVec (hermiteB x y) 0 (hermiteFirst s x y (hermiteB x y))) := by
    simp only [setHermite, setCoeffsFromB, setVec]
    rw [if_pos trivial]
  have hbi : ∀ i, 0 < i → i + 1 < n → (setHermite s n x y).b i = hermiteB x y i := by
    intro i h0 hi
    simp only [setHermite, setCoeffsFromB, setVec]
    rw [if_neg (by omega), if_neg (by omega)]
  have hvi : ∀ i, 0 < i → (setVec (hermiteB x y) 0 (hermiteFirst s x y (hermiteB x y))) i
      = hermiteB x y i := by
    intro i h0; simp only [setVec]; rw [if_neg (by omega)]
  have cubic : ∀ i, i + 2 < n →
      coeffD x y (setHermite s n x y).b i = coeffD x y (setHermite s n x y).b (i + 1) →
      ∀ t u, x i ≤ t → t < x (i + 2) → x i ≤ u → u < x (i + 2) →
        deriv (setHermite s n x y) 3 t = deriv (setHermite s n x y) 3 u := by
    intro i hi he
    have key : ∀ t, x i ≤ t → t < x (i + 2) →
        deriv (setHermite s n x y) 3 t = 6 * (setHermite s n x y).d i := by
      intro t h1 h2
      rcases lt_or_ge t (x (i + 1)) with h' | h'
      · exact deriv3_piece _ f i (show i + 1 < n by omega) t h1 h'
      · have e := deriv3_piece _ f (i + 1) (show i + 1 + 1 < n by omega) t h' h2
        rw [e, hd i (by omega), hd (i + 1) (by omega), he]
    intro t u h1 h2 h1' h2'
    rw [key t h1 h2, key u h1' h2']
  simp only [setPoints]
  refine ⟨fun h => ?_, fun h => ?_, fun h => ?_, fun h => ?_, fun h => ?_, fun h => ?_⟩
  · have e := deriv1_left _ f f1 (x 0) le_rfl
    change deriv (setHermite s n x y) 1 (x 0) = 2 * (setHermite s n x y).c0
      * (x 0 - x 0) + (setHermite s n x y).b 0 at e
    rw [e, sub_self, mul_zero, zero_add, hb0]
    simp [hermiteFirst, h]
  · have e := deriv2_piece _ f 0 (show 0 + 1 < n by omega) (x 0) le_rfl (hx 0 (by omega))
    change deriv (setHermite s n x y) 2 (x 0) = 6 * (setHermite s n x y).d 0
      * (x 0 - x 0) + 2 * (setHermite s n x y).c 0 at e
    rw [e, sub_self, mul_zero, zero_add, hc 0 (by omega)]
    have n0 := hne 0 (by omega)
    rw [zero_add] at n0
    simp only [coeffC, zero_add]
    rw [hb0, hbi 1 (by omega) (by omega)]
    simp only [hermiteFirst, h]
    field_simp
    ring
  · have h4 := hp.four (Or.inl h)
    refine cubic 0 (by omega) ?_
    have n0 := hne 0 (by omega)
    have n1 := hne 1 (by omega)
    simp only [coeffD, coeffC, zero_add, Nat.reduceAdd] at n0 n1 ⊢
    rw [hb0, hbi 1 (by omega) (by omega), hbi 2 (by omega) (by omega)]
    simp only [hermiteFirst, h]
    field_simp
    ring
  · have e := deriv1_right _ f (x (n - 1)) le_rfl
    change deriv (setHermite s n x y) 1 (x (n - 1)) = 2 * (setHermite s n x y).c (n - 1)
      * (x (n - 1) - x (n - 1)) + (setHermite s n x y).b (n - 1) at e
    rw [e, sub_self, mul_zero, zero_add, hbl]
    simp [hermiteLast, h]
  · have e := deriv2_right _ f (x (n - 1)) le_rfl
    rw [e]
    simp only [setHermite, setCoeffsFromB, hermiteLastC, h]
    rw [if_neg (by omega)]
    ring
  · have h4 := hp.four (Or.inr h)
    obtain ⟨m, rfl⟩ : ∃ m, n = m + 3 := ⟨n - 3, by omega⟩
    simp only [show m + 3 - 1 = m + 2 by omega, show m + 3 - 3 = m by omega] at *
    refine cubic m (by omega) ?_
    have n0 := hne m (by omega)
    have n1 := hne (m + 1) (by omega)
    simp only [show m + 1 + 1 = m + 2 by omega] at n1
    simp only [coeffD, coeffC, show m + 1 + 1 = m + 2 by omega]
    rw [hbl, hbi m (by omega) (by omega), hbi (m + 1) (by omega) (by omega)]
    simp only [hermiteLast, h, show m + 3 - 1 = m + 2 by omega, show m + 3 - 3 = m by omega,
      show m + 3 - 2 = m + 1 by omega, hvi m (by omega), hvi (m + 1) (by omega)]
    field_simp
    ring

/-- The extrapolation of a cubic or hermite spline is a parabola that continues value, slope and
curvature of the outer pieces; a straight line at an end with a given slope. -/
theorem C64_extrapolation (s : Spl K) (n : Nat) (x y : Nat → K) (type : SplineType)
    (ht : type ≠ .linear) (hp : Spec.Points s n x) (t : K) :
    (t ≤ x 0 → eval (setPoints s n x y type) t = y 0
      + deriv (setPoints s n x y type) 1 (x 0) * (t - x 0)
      + (if s.left = .first then 0 else deriv (setPoints s n x y type) 2 (x 0) / 2)
        * (t - x 0) ^ 2) ∧
    (x (n - 1) ≤ t → eval (setPoints s n x y type) t = y (n - 1)
      + deriv (setPoints s n x y type) 1 (x (n - 1)) * (t - x (n - 1))
      + (if s.right = .first then 0 else deriv (setPoints s n x y type) 2 (x (n - 1)) / 2)
        * (t - x (n - 1)) ^ 2) := by
  have h3 := hp.three
  have hx : Increasing n x := hp.incr
  have f := setPoints_fits s n x y type hp.three hp.incr
  have f1 : Fits1 (setPoints s n x y type) := by
    cases type
    · exact absurd rfl ht
    · exact cspline_fits1 s n x y hp.three (fun h => hp.four (Or.inr h)) hp.incr
    · exact (hermite_fits s n x y hp.three hp.incr).2
  have hc0 : (setPoints s n x y type).c0
      = if s.left = .first then 0 else (setPoints s n x y type).c 0 := by
    cases type
    · exact absurd rfl ht
    · rfl
    · rfl
  have hcl : s.right = .first → (setPoints s n x y type).c (n - 1) = 0 := by
    intro h
    cases type
    · exact absurd rfl ht
    · simp [setPoints, setCspline, h, setVec]
    · simp [setPoints, setHermite, setCoeffsFromB, hermiteLastC, h]
  obtain ⟨e1, e2, e3⟩ := setPoints_n s n x y type
  have a1 := eval_left _ f t
  have a2 := deriv1_left _ f f1 (x 0) (by rw [e2])
  have a3 := deriv2_piece _ f 0 (by rw [e1]; omega) (x 0) (by rw [e2])
    (by rw [e2]; exact hx 0 (by omega))
  have b1 := eval_right _ f t
  have b2 := deriv1_right _ f (x (n - 1)) (by rw [e2, e1])
  have b3 := deriv2_right _ f (x (n - 1)) (by rw [e2, e1])
  rw [e1, e2, e3] at b1
  rw [e2, e3] at a1
  rw [e2] at a2 a3
  rw [e1, e2] at b2
  rw [e1] at b3
  simp only [sub_self, mul_zero, zero_add] at a2 a3 b2
  refine ⟨fun h => ?_, fun h => ?_⟩
  · rw [a1 h, a2, a3, hc0]
    split_ifs <;> ring
  · rw [b1 h, b2, b3]
    split_ifs with h'
    · rw [hcl h']; ring
    · ring

/-- A concrete spline that meets the hypotheses. -/
example : Spec.Points (fresh ℚ) 3 (fun i => i) :=
  ⟨le_rfl, by simp [fresh], fun i _ => by exact_mod_cast Nat.lt_succ_self i⟩

example : Spec.Points ({ fresh ℚ with left := .notAKnot, right := .notAKnot }) 5
    (fun i => (i : ℚ) ^ 2) :=
  ⟨by norm_num, fun _ => by norm_num, fun i _ => by push_cast; nlinarith [Nat.cast_nonneg (α := ℚ) i]⟩

end Verif.Spline
