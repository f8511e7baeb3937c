import Mathlib.Analysis.Calculus.Deriv.Pow
import Mathlib.Analysis.Calculus.Deriv.Mul
import Mathlib.Analysis.Calculus.Deriv.Add
import Verif.Spline.Pivots

/-!
# Lemmas about splines
-/

set_option linter.unusedSectionVars false
set_option linter.unusedSimpArgs false

namespace Verif.Spline

section

variable {K : Type} [Field K] [LinearOrder K] [IsStrictOrderedRing K]

theorem Increasing.le {n : Nat} {x : Nat → K} (h : Increasing n x) {i j : Nat} (hij : i ≤ j)
    (hj : j < n) : x i ≤ x j := by
  rcases Nat.eq_or_lt_of_le hij with rfl | h'
  · exact le_rfl
  · exact (h.lt h' hj).le

/-- Inside the data `find_closest` returns the index of the piece. -/
theorem findClosest_piece (s : Spl K) (hx : Increasing s.n s.x) (i : Nat) (hi : i < s.n) (t : K)
    (h1 : s.x i ≤ t) (h2 : i + 1 < s.n → t < s.x (i + 1)) : findClosest s t = i := by
  unfold findClosest
  by_cases h : i + 1 < s.n
  · have : (List.range s.n).find? (fun i : Nat => decide (t < s.x i)) = some (i + 1) := by
      rw [List.find?_range_eq_some]
      refine ⟨by simpa using h2 h, by simpa using h, ?_⟩
      intro j hj
      simpa using le_trans (hx.le (by omega) hi) h1
    simp [this]
  · have : (List.range s.n).find? (fun i : Nat => decide (t < s.x i)) = none := by
      rw [List.find?_eq_none]
      intro j hj
      rw [List.mem_range] at hj
      simpa using le_trans (hx.le (show j ≤ i by omega) hi) h1
    simp [this]
    omega

theorem findClosest_left (s : Spl K) (hn : 0 < s.n) (t : K) (h : t < s.x 0) :
    findClosest s t = 0 := by
  unfold findClosest
  have : (List.range s.n).find? (fun i : Nat => decide (t < s.x i)) = some 0 := by
    rw [List.find?_range_eq_some]
    refine ⟨by simpa using h, by simpa using hn, ?_⟩
    intro j hj; omega
  simp [this]

/-- What makes the pieces fit together. -/
structure Fits (s : Spl K) : Prop where
  two : 2 ≤ s.n
  incr : Increasing s.n s.x
  value : ∀ i, i + 1 < s.n → ((s.d i * (s.x (i + 1) - s.x i) + s.c i) * (s.x (i + 1) - s.x i) + s.b i)
    * (s.x (i + 1) - s.x i) + s.y i = s.y (i + 1)
  last : s.d (s.n - 1) = 0

/-- The first derivatives fit together. -/
def Fits1 (s : Spl K) : Prop := ∀ i, i + 1 < s.n →
  (3 * s.d i * (s.x (i + 1) - s.x i) + 2 * s.c i) * (s.x (i + 1) - s.x i) + s.b i = s.b (i + 1)

theorem exists_piece {n : Nat} {x : Nat → K} (hx : Increasing n x) (hn : 2 ≤ n) {t : K}
    (h1 : x 0 ≤ t) (h2 : t < x (n - 1)) : ∃ i, i + 1 < n ∧ x i ≤ t ∧ t < x (i + 1) := by
  have : ∃ k, k < n ∧ t < x k := ⟨n - 1, by omega, h2⟩
  classical
  obtain ⟨hk1, hk2⟩ := Nat.find_spec this
  have hk0 : Nat.find this ≠ 0 := by
    intro h0; rw [h0] at hk2; exact absurd hk2 (not_lt.2 h1)
  refine ⟨Nat.find this - 1, by omega, ?_, ?_⟩
  · have := Nat.find_min this (m := Nat.find this - 1) (by omega)
    push Not at this
    exact this (by omega)
  · rwa [show Nat.find this - 1 + 1 = Nat.find this by omega]

/-- The spline on a closed piece. -/
theorem eval_piece (s : Spl K) (f : Fits s) (i : Nat) (hi : i + 1 < s.n) (t : K)
    (h1 : s.x i ≤ t) (h2 : t ≤ s.x (i + 1)) :
    eval s t = ((s.d i * (t - s.x i) + s.c i) * (t - s.x i) + s.b i) * (t - s.x i) + s.y i := by
  have hx := f.incr
  have hnl : ¬ t < s.x 0 := not_lt.2 (le_trans (hx.le (by omega) (by omega)) h1)
  have hnr : ¬ s.x (s.n - 1) < t := not_lt.2 (le_trans h2 (hx.le (by omega) (by omega)))
  simp only [eval, hnl, hnr, if_false]
  rcases eq_or_lt_of_le h2 with rfl | h3
  · rw [findClosest_piece s hx (i + 1) hi _ le_rfl (fun h => hx _ h)]
    simp [f.value i hi]
  · rw [findClosest_piece s hx i (by omega) t h1 (fun _ => h3)]

theorem eval_right (s : Spl K) (f : Fits s) (t : K) (h : s.x (s.n - 1) ≤ t) :
    eval s t = (s.c (s.n - 1) * (t - s.x (s.n - 1)) + s.b (s.n - 1)) * (t - s.x (s.n - 1))
      + s.y (s.n - 1) := by
  have hx := f.incr
  have h2 := f.two
  have hnl : ¬ t < s.x 0 := not_lt.2 (le_trans (hx.le (by omega) (by omega)) h)
  have hc := findClosest_piece s hx (s.n - 1) (by omega) t h (by omega)
  simp only [eval, hnl, if_false, hc, f.last, zero_mul, zero_add, ite_self]

theorem eval_left (s : Spl K) (f : Fits s) (t : K) (h : t ≤ s.x 0) :
    eval s t = (s.c0 * (t - s.x 0) + s.b 0) * (t - s.x 0) + s.y 0 := by
  rcases eq_or_lt_of_le h with rfl | h'
  · rw [eval_piece s f 0 (by have := f.two; omega) _ le_rfl (f.incr 0 (by have := f.two; omega)).le]
    simp
  · simp only [eval, h', if_true, findClosest_left s (by have := f.two; omega) t h']

/-- The first derivative on a closed piece. -/
theorem deriv1_piece (s : Spl K) (f : Fits s) (f1 : Fits1 s) (i : Nat) (hi : i + 1 < s.n) (t : K)
    (h1 : s.x i ≤ t) (h2 : t ≤ s.x (i + 1)) :
    deriv s 1 t = (3 * s.d i * (t - s.x i) + 2 * s.c i) * (t - s.x i) + s.b i := by
  have hx := f.incr
  have hnl : ¬ t < s.x 0 := not_lt.2 (le_trans (hx.le (by omega) (by omega)) h1)
  have hnr : ¬ s.x (s.n - 1) < t := not_lt.2 (le_trans h2 (hx.le (by omega) (by omega)))
  simp only [deriv, if_true, OfNat.ofNat_ne_one, reduceIte, Nat.reduceEqDiff, hnl, hnr, if_false]
  rcases eq_or_lt_of_le h2 with rfl | h3
  · rw [findClosest_piece s hx (i + 1) hi _ le_rfl (fun h => hx _ h)]
    simp [f1 i hi]
  · rw [findClosest_piece s hx i (by omega) t h1 (fun _ => h3)]

theorem deriv1_right (s : Spl K) (f : Fits s) (t : K) (h : s.x (s.n - 1) ≤ t) :
    deriv s 1 t = 2 * s.c (s.n - 1) * (t - s.x (s.n - 1)) + s.b (s.n - 1) := by
  have hx := f.incr
  have h2 := f.two
  have hnl : ¬ t < s.x 0 := not_lt.2 (le_trans (hx.le (by omega) (by omega)) h)
  have hc := findClosest_piece s hx (s.n - 1) (by omega) t h (by omega)
  simp only [deriv, if_true, OfNat.ofNat_ne_one, reduceIte, Nat.reduceEqDiff, hnl, if_false, hc, f.last, mul_zero, zero_mul, zero_add, ite_self]

theorem deriv1_left (s : Spl K) (f : Fits s) (f1 : Fits1 s) (t : K) (h : t ≤ s.x 0) :
    deriv s 1 t = 2 * s.c0 * (t - s.x 0) + s.b 0 := by
  rcases eq_or_lt_of_le h with rfl | h'
  · rw [deriv1_piece s f f1 0 (by have := f.two; omega) _ le_rfl
      (f.incr 0 (by have := f.two; omega)).le]
    simp
  · simp only [deriv, if_true, OfNat.ofNat_ne_one, reduceIte, Nat.reduceEqDiff, h', if_true, findClosest_left s (by have := f.two; omega) t h']

/-- The second derivative inside a piece, and at its left end. -/
theorem deriv2_piece (s : Spl K) (f : Fits s) (i : Nat) (hi : i + 1 < s.n) (t : K)
    (h1 : s.x i ≤ t) (h2 : t < s.x (i + 1)) :
    deriv s 2 t = 6 * s.d i * (t - s.x i) + 2 * s.c i := by
  have hx := f.incr
  have hnl : ¬ t < s.x 0 := not_lt.2 (le_trans (hx.le (by omega) (by omega)) h1)
  have hnr : ¬ s.x (s.n - 1) < t := not_lt.2 (le_trans h2.le (hx.le (by omega) (by omega)))
  simp only [deriv, if_true, OfNat.ofNat_ne_one, reduceIte, Nat.reduceEqDiff, hnl, hnr, if_false]
  rw [findClosest_piece s hx i (by omega) t h1 (fun _ => h2)]

theorem deriv3_piece (s : Spl K) (f : Fits s) (i : Nat) (hi : i + 1 < s.n) (t : K)
    (h1 : s.x i ≤ t) (h2 : t < s.x (i + 1)) : deriv s 3 t = 6 * s.d i := by
  have hx := f.incr
  have hnl : ¬ t < s.x 0 := not_lt.2 (le_trans (hx.le (by omega) (by omega)) h1)
  have hnr : ¬ s.x (s.n - 1) < t := not_lt.2 (le_trans h2.le (hx.le (by omega) (by omega)))
  simp only [deriv, if_true, OfNat.ofNat_ne_one, reduceIte, Nat.reduceEqDiff, hnl, hnr, if_false]
  rw [findClosest_piece s hx i (by omega) t h1 (fun _ => h2)]

theorem deriv2_right (s : Spl K) (f : Fits s) (t : K) (h : s.x (s.n - 1) ≤ t) :
    deriv s 2 t = 2 * s.c (s.n - 1) := by
  have hx := f.incr
  have h2 := f.two
  have hnl : ¬ t < s.x 0 := not_lt.2 (le_trans (hx.le (by omega) (by omega)) h)
  have hc := findClosest_piece s hx (s.n - 1) (by omega) t h (by omega)
  simp only [deriv, if_true, OfNat.ofNat_ne_one, reduceIte, Nat.reduceEqDiff, hnl, if_false, hc, f.last, mul_zero, zero_mul, zero_add, ite_self]

theorem deriv2_left (s : Spl K) (f : Fits s) (t : K) (h : t < s.x 0) :
    deriv s 2 t = 2 * s.c0 := by
  simp only [deriv, if_true, OfNat.ofNat_ne_one, reduceIte, Nat.reduceEqDiff, h, if_true]

/-! The equations of the cubic spline, row by row. -/

theorem sum_three {n : Nat} (i : Nat) (h0 : i ≠ 0) (hi : i + 1 < n) (a b c : K) (f : Nat → K) :
    ∑ j ∈ Finset.range n, (if j + 1 = i then a else if j = i then b else if j = i + 1 then c else 0)
      * f j = a * f (i - 1) + b * f i + c * f (i + 1) := by
  have : ∀ j, (if j + 1 = i then a else if j = i then b else if j = i + 1 then c else 0) * f j
      = (if j = i - 1 then a * f j else 0) + (if j = i then b * f j else 0)
        + (if j = i + 1 then c * f j else 0) := by
    intro j
    by_cases h1 : j + 1 = i
    · have e1 : j = i - 1 := by omega
      have e2 : ¬ j = i := by omega
      have e3 : ¬ j = i + 1 := by omega
      rw [if_pos h1, if_pos e1, if_neg e2, if_neg e3]; simp
    · have e1 : ¬ j = i - 1 := by omega
      rw [if_neg h1, if_neg e1]
      by_cases h2 : j = i
      · have e3 : ¬ j = i + 1 := by omega
        rw [if_pos h2, if_pos h2, if_neg e3]; simp
      · rw [if_neg h2, if_neg h2]
        split_ifs <;> simp
  simp only [this, Finset.sum_add_distrib, Finset.sum_ite_eq', Finset.mem_range]
  rw [if_pos (by omega), if_pos (by omega), if_pos (by omega)]

/-- The coefficients `c` before the last one is reset. -/
def coeffs (s : Spl K) (n : Nat) (x y : Nat → K) : Nat → K :=
  luSolve (system s n x) (rhs s n x y)

theorem row_inner (s : Spl K) (n : Nat) (x y : Nat → K) (hn : 3 ≤ n)
    (h4 : s.right = .notAKnot → 4 ≤ n) (hx : Increasing n x) (i : Nat) (h0 : i ≠ 0)
    (hi : i + 1 < n) :
    1 / 3 * (x i - x (i - 1)) * coeffs s n x y (i - 1)
      + 2 / 3 * (x (i + 1) - x (i - 1)) * coeffs s n x y i
      + 1 / 3 * (x (i + 1) - x i) * coeffs s n x y (i + 1)
      = (y (i + 1) - y i) / (x (i + 1) - x i) - (y i - y (i - 1)) / (x i - x (i - 1)) := by
  have h := cspline_solves s n x y hn h4 hx i (by omega)
  have hr : rhs s n x y i
      = (y (i + 1) - y i) / (x (i + 1) - x i) - (y i - y (i - 1)) / (x i - x (i - 1)) := by
    simp only [rhs, h0, if_false]
    rw [if_neg (by omega)]
  have hm : ∀ j, matrix s n x i j = (if j + 1 = i then 1 / 3 * (x i - x (i - 1))
      else if j = i then 2 / 3 * (x (i + 1) - x (i - 1))
      else if j = i + 1 then 1 / 3 * (x (i + 1) - x i) else 0) := by
    intro j
    simp only [matrix, h0, if_false]
    rw [if_neg (by omega), if_pos (by omega)]
  simp only [hm] at h
  rw [sum_three i h0 hi, hr] at h
  exact h

theorem row_first (s : Spl K) (n : Nat) (x y : Nat → K) (hn : 3 ≤ n)
    (h4 : s.right = .notAKnot → 4 ≤ n) (hx : Increasing n x) :
    (s.left = .second → 2 * coeffs s n x y 0 = rhs s n x y 0) ∧
    (s.left = .first → 2 * (x 1 - x 0) * coeffs s n x y 0 + (x 1 - x 0) * coeffs s n x y 1
      = rhs s n x y 0) ∧
    (s.left = .notAKnot → -(x 2 - x 1) * coeffs s n x y 0 + (x 2 - x 0) * coeffs s n x y 1
      + -(x 1 - x 0) * coeffs s n x y 2 = rhs s n x y 0) := by
  have h := cspline_solves s n x y hn h4 hx 0 (by omega)
  obtain ⟨m, rfl⟩ : ∃ m, n = m + 3 := ⟨n - 3, by omega⟩
  rw [Finset.sum_range_succ', Finset.sum_range_succ', Finset.sum_range_succ'] at h
  have hz : ∀ j, matrix s (m + 3) x 0 (j + 1 + 1 + 1) = 0 := by
    intro j
    apply system_band s (m + 3) x hn 0
    right
    have : (system s (m + 3) x).nu ≤ 2 := by simp only [system]; split_ifs <;> omega
    omega
  simp only [hz, zero_mul, Finset.sum_const_zero, zero_add, Nat.reduceAdd] at h
  refine ⟨fun hl => ?_, fun hl => ?_, fun hl => ?_⟩
  · rw [← h]; simp [matrix, hl, coeffs]
  · rw [← h]; simp [matrix, hl, coeffs]; ring
  · rw [← h]; simp [matrix, hl, coeffs]; ring

theorem row_last (s : Spl K) (n : Nat) (x y : Nat → K) (hn : 3 ≤ n)
    (h4 : s.right = .notAKnot → 4 ≤ n) (hx : Increasing n x) :
    (s.right = .second → 2 * coeffs s n x y (n - 1) = s.rightValue) ∧
    (s.right = .first → (x (n - 1) - x (n - 2)) * coeffs s n x y (n - 2)
      + 2 * (x (n - 1) - x (n - 2)) * coeffs s n x y (n - 1)
      = 3 * (s.rightValue - (y (n - 1) - y (n - 2)) / (x (n - 1) - x (n - 2)))) ∧
    (s.right = .notAKnot → -(x (n - 1) - x (n - 2)) * coeffs s n x y (n - 3)
      + (x (n - 1) - x (n - 3)) * coeffs s n x y (n - 2)
      + -(x (n - 2) - x (n - 3)) * coeffs s n x y (n - 1) = 0) := by
  have h := cspline_solves s n x y hn h4 hx (n - 1) (by omega)
  obtain ⟨m, rfl⟩ : ∃ m, n = m + 3 := ⟨n - 3, by omega⟩
  rw [Finset.sum_range_succ, Finset.sum_range_succ, Finset.sum_range_succ] at h
  have hz : ∀ j < m, matrix s (m + 3) x (m + 2) j = 0 := by
    intro j hj
    apply system_band s (m + 3) x hn (m + 2)
    left
    have : (system s (m + 3) x).nl ≤ 2 := by simp only [system]; split_ifs <;> omega
    omega
  simp only [show m + 3 - 1 = m + 2 by omega, show m + 3 - 2 = m + 1 by omega,
    show m + 3 - 3 = m by omega] at h ⊢
  rw [Finset.sum_eq_zero (by
    intro j hj; rw [Finset.mem_range] at hj; rw [hz j hj, zero_mul]), zero_add] at h
  refine ⟨fun hl => ?_, fun hl => ?_, fun hl => ?_⟩
  · have : rhs s (m + 3) x y (m + 2) = s.rightValue := by simp [rhs, hl]
    rw [this] at h
    rw [← h]; simp [matrix, hl, coeffs]
  · have : rhs s (m + 3) x y (m + 2)
        = 3 * (s.rightValue - (y (m + 2) - y (m + 1)) / (x (m + 2) - x (m + 1))) := by
      simp [rhs, hl]
    rw [this] at h
    rw [← h]; simp [matrix, hl, coeffs]
  · have : rhs s (m + 3) x y (m + 2) = 0 := by simp [rhs, hl]
    rw [this] at h
    rw [← h]; simp [matrix, hl, coeffs]

/-- The coefficients of the pieces of a cubic spline. -/
theorem cspline_data (s : Spl K) (n : Nat) (x y : Nat → K) (hn : 3 ≤ n) :
    (∀ i, i + 1 < n → (setCspline s n x y).b i = csplineB x y (coeffs s n x y) i) ∧
    (∀ i, i + 1 < n → (setCspline s n x y).c i = coeffs s n x y i) ∧
    (∀ i, i + 1 < n → (setCspline s n x y).d i
      = 1 / 3 * (coeffs s n x y (i + 1) - coeffs s n x y i) / (x (i + 1) - x i)) := by
  refine ⟨fun i hi => ?_, fun i hi => ?_, fun i hi => ?_⟩
  · simp only [setCspline, coeffs]
    rw [if_neg (by omega)]
  · simp only [setCspline, coeffs]
    split_ifs with h
    · simp only [setVec]; rw [if_neg (by omega)]
    · rfl
  · simp only [setCspline, csplineD, coeffs]
    rw [if_neg (by omega)]

theorem cspline_fits (s : Spl K) (n : Nat) (x y : Nat → K) (hn : 3 ≤ n)
    (hx : Increasing n x) : Fits (setCspline s n x y) := by
  obtain ⟨hb, hc, hd⟩ := cspline_data s n x y hn
  refine ⟨show 2 ≤ n by omega, hx, ?_, ?_⟩
  · intro i hi
    change i + 1 < n at hi
    rw [hb i hi, hc i hi, hd i hi]
    change ((1 / 3 * (coeffs s n x y (i + 1) - coeffs s n x y i) / (x (i + 1) - x i)
      * (x (i + 1) - x i) + coeffs s n x y i) * (x (i + 1) - x i) + csplineB x y (coeffs s n x y) i)
      * (x (i + 1) - x i) + y i = y (i + 1)
    have h : x (i + 1) - x i ≠ 0 := (sub_pos.2 (hx i hi)).ne'
    simp only [csplineB]
    field_simp
    ring
  · simp [setCspline, csplineD]

theorem cspline_fits1 (s : Spl K) (n : Nat) (x y : Nat → K) (hn : 3 ≤ n)
    (h4 : s.right = .notAKnot → 4 ≤ n) (hx : Increasing n x) : Fits1 (setCspline s n x y) := by
  obtain ⟨hb, hc, hd⟩ := cspline_data s n x y hn
  intro i hi
  change i + 1 < n at hi
  have h : x (i + 1) - x i ≠ 0 := (sub_pos.2 (hx i hi)).ne'
  change (3 * (setCspline s n x y).d i * (x (i + 1) - x i) + 2 * (setCspline s n x y).c i)
    * (x (i + 1) - x i) + (setCspline s n x y).b i = (setCspline s n x y).b (i + 1)
  by_cases hl : i + 2 < n
  · have hr := row_inner s n x y hn h4 hx (i + 1) (by omega) hl
    rw [hb i hi, hc i hi, hd i hi, hb (i + 1) hl]
    have h' : x (i + 1 + 1) - x (i + 1) ≠ 0 := (sub_pos.2 (hx (i + 1) hl)).ne'
    simp only [Nat.add_sub_cancel] at hr
    simp only [csplineB]
    rw [show 3 * (1 / 3 * (coeffs s n x y (i + 1) - coeffs s n x y i) / (x (i + 1) - x i))
      * (x (i + 1) - x i) = coeffs s n x y (i + 1) - coeffs s n x y i by field_simp]
    linear_combination hr
  · have e : i = n - 2 := by omega
    rw [hc i hi, hb i hi, hd i hi]
    simp only [setCspline, csplineD]
    rw [if_pos (by omega), if_neg (by omega)]
    have e' : n - 1 = n - 2 + 1 := by omega
    subst e
    rw [e']
    simp only [coeffs]
    ring

/-- The second derivatives fit together. -/
theorem cspline_fits2 (s : Spl K) (n : Nat) (x y : Nat → K) (hn : 3 ≤ n) (hx : Increasing n x)
    (i : Nat) (hi : i + 1 < n) (hl : s.right = .first → i + 2 < n) :
    (setCspline s n x y).c i + 3 * (setCspline s n x y).d i * (x (i + 1) - x i)
      = (setCspline s n x y).c (i + 1) := by
  obtain ⟨hb, hc, hd⟩ := cspline_data s n x y hn
  have h : x (i + 1) - x i ≠ 0 := (sub_pos.2 (hx i hi)).ne'
  have hc1 : (setCspline s n x y).c (i + 1) = coeffs s n x y (i + 1) := by
    by_cases h2 : i + 2 < n
    · exact hc (i + 1) h2
    · simp only [setCspline, coeffs]
      rw [if_neg (fun h => h2 (hl h))]
  rw [hc i hi, hd i hi, hc1]
  field_simp
  ring

end

/-- Two functions glued at a point. -/
theorem glue {f p q : ℝ → ℝ} {a m l r : ℝ} (hla : l < a) (har : a < r)
    (hl : ∀ t, l ≤ t → t ≤ a → f t = p t) (hr : ∀ t, a ≤ t → t ≤ r → f t = q t)
    (hp : HasDerivAt p m a) (hq : HasDerivAt q m a) : HasDerivAt f m a := by
  have h1 : HasDerivWithinAt f m (Set.Iic a) a := by
    refine hp.hasDerivWithinAt.congr_of_eventuallyEq ?_ (hl a hla.le le_rfl)
    filter_upwards [self_mem_nhdsWithin, mem_nhdsWithin_of_mem_nhds (Ioi_mem_nhds hla)] with t h1 h2
    exact hl t (le_of_lt h2) h1
  have h2 : HasDerivWithinAt f m (Set.Ici a) a := by
    refine hq.hasDerivWithinAt.congr_of_eventuallyEq ?_ (hr a le_rfl har.le)
    filter_upwards [self_mem_nhdsWithin, mem_nhdsWithin_of_mem_nhds (Iio_mem_nhds har)] with t h1 h2
    exact hr t h1 (le_of_lt h2)
  have := h1.union h2
  rwa [Set.Iic_union_Ici, hasDerivWithinAt_univ] at this

theorem hasDerivAt_cubic (d c b y x0 t : ℝ) :
    HasDerivAt (fun t => ((d * (t - x0) + c) * (t - x0) + b) * (t - x0) + y)
      ((3 * d * (t - x0) + 2 * c) * (t - x0) + b) t := by
  have h0 : HasDerivAt (fun t : ℝ => t - x0) 1 t := (hasDerivAt_id' t).sub_const x0
  have := ((((h0.const_mul d).add_const c).mul h0).add_const b).mul h0 |>.add_const y
  refine this.congr_deriv ?_
  simp only [Pi.mul_apply, Pi.add_apply]
  ring

theorem hasDerivAt_quad (d c b x0 t : ℝ) :
    HasDerivAt (fun t => (3 * d * (t - x0) + 2 * c) * (t - x0) + b)
      (6 * d * (t - x0) + 2 * c) t := by
  have h0 : HasDerivAt (fun t : ℝ => t - x0) 1 t := (hasDerivAt_id' t).sub_const x0
  have := (((h0.const_mul (3 * d)).add_const (2 * c)).mul h0).add_const b
  refine this.congr_deriv ?_
  ring

end Verif.Spline
