import Verif.Weinberg.Spec
import Mathlib.Analysis.SpecialFunctions.Log.Deriv
import Mathlib.Analysis.Calculus.Deriv.Mul
import Mathlib.Analysis.Calculus.Deriv.Pow

/-!
# Derivatives of the Coleman-Weinberg function
-/

namespace Verif.Weinberg

open Filter Topology
open Spec (cw)

noncomputable section

/-- The derivative of `cw`. -/
def cw1 (t scale c x : ℝ) : ℝ :=
  if |x| < t then 0 else 1 / (32 * Real.pi ^ 2) * x * (Real.log |x| - 2 * Real.log scale - c + 1 / 2)

/-- The second derivative of `cw`. -/
def cw2 (t scale c x : ℝ) : ℝ :=
  if |x| < t then 0 else 1 / (32 * Real.pi ^ 2) * (Real.log |x| - 2 * Real.log scale - c + 3 / 2)

theorem abs_lt_eventually {t x : ℝ} (h : |x| < t) : ∀ᶠ y in 𝓝 x, |y| < t :=
  continuous_abs.continuousAt.eventually (gt_mem_nhds h)

theorem lt_abs_eventually {t x : ℝ} (h : t < |x|) : ∀ᶠ y in 𝓝 x, t < |y| :=
  continuous_abs.continuousAt.eventually (lt_mem_nhds h)

theorem hasDerivAt_cut {t x : ℝ} (hx : |x| ≠ t) {g : ℝ → ℝ} {g' : ℝ}
    (h : t < |x| → HasDerivAt g g' x) :
    HasDerivAt (fun y => if |y| < t then 0 else g y) (if |x| < t then 0 else g') x := by
  rcases lt_or_gt_of_ne hx with h1 | h1
  · rw [if_pos h1]
    refine (hasDerivAt_const x (0 : ℝ)).congr_of_eventuallyEq ?_
    filter_upwards [abs_lt_eventually h1] with y hy
    rw [if_pos hy]
  · rw [if_neg (not_lt.2 h1.le)]
    refine (h h1).congr_of_eventuallyEq ?_
    filter_upwards [lt_abs_eventually h1] with y hy
    rw [if_neg (not_lt.2 hy.le)]

theorem hasDerivAt_cw {t x : ℝ} (ht : 0 < t) (hx : |x| ≠ t) (scale c : ℝ) :
    HasDerivAt (cw t scale c) (cw1 t scale c x) x := by
  unfold cw1 Spec.cw
  refine hasDerivAt_cut hx fun h => ?_
  have hx0 : x ≠ 0 := by
    rintro rfl
    rw [abs_zero] at h
    exact absurd ht (not_lt.2 h.le)
  simp only [Real.log_abs]
  have h1 := ((hasDerivAt_pow 2 x).const_mul (1 / (64 * Real.pi ^ 2))).mul
    (((Real.hasDerivAt_log hx0).sub_const (2 * Real.log scale)).sub_const c)
  refine h1.congr_deriv ?_
  field_simp
  ring

theorem hasDerivAt_cw1 {t x : ℝ} (ht : 0 < t) (hx : |x| ≠ t) (scale c : ℝ) :
    HasDerivAt (cw1 t scale c) (cw2 t scale c x) x := by
  unfold cw2
  have : cw1 t scale c = fun y => if |y| < t then 0 else
      1 / (32 * Real.pi ^ 2) * y * (Real.log |y| - 2 * Real.log scale - c + 1 / 2) := rfl
  rw [this]
  refine hasDerivAt_cut hx fun h => ?_
  have hx0 : x ≠ 0 := by
    rintro rfl
    rw [abs_zero] at h
    exact absurd ht (not_lt.2 h.le)
  simp only [Real.log_abs]
  have h1 := ((hasDerivAt_id x).const_mul (1 / (32 * Real.pi ^ 2))).mul
    ((((Real.hasDerivAt_log hx0).sub_const (2 * Real.log scale)).sub_const c).add_const (1 / 2))
  refine h1.congr_deriv ?_
  simp only [id]
  field_simp
  ring

theorem log_bounded {t x R : ℝ} (ht : 0 < t) (h : t ≤ |x|) (hR : |x| ≤ R) :
    |Real.log (|x|)| ≤ |Real.log t| + |Real.log R| := by
  have hx : 0 < |x| := ht.trans_le h
  have h1 := Real.log_le_log ht h
  have h2 := Real.log_le_log hx hR
  rw [abs_le]
  constructor
  · linarith [neg_abs_le (Real.log t), abs_nonneg (Real.log R)]
  · linarith [le_abs_self (Real.log R), abs_nonneg (Real.log t)]

theorem bounded_cut {t : ℝ} (ht : 0 < t) (k : ℕ) (A B : ℝ) :
    Bounded fun x => if |x| < t then 0 else A * x ^ k * (Real.log |x| + B) := by
  intro R
  refine ⟨|A| * |R| ^ k * ((|Real.log t| + |Real.log R|) + |B|), fun x hx => ?_⟩
  have hR : |x| ≤ |R| := hx.trans (le_abs_self R)
  dsimp only
  split_ifs with h
  · rw [abs_zero]; positivity
  · rw [abs_mul, abs_mul, abs_pow]
    refine mul_le_mul (mul_le_mul_of_nonneg_left (pow_le_pow_left₀ (abs_nonneg _) hR k) (abs_nonneg _))
      ((abs_add_le _ _).trans (add_le_add (log_bounded ht (not_lt.1 h) hx) le_rfl)) (abs_nonneg _)
      (by positivity)

theorem bounded_cw {t : ℝ} (ht : 0 < t) (scale c : ℝ) : Bounded (cw t scale c) := by
  have e : cw t scale c = fun x => if |x| < t then 0 else
      1 / (64 * Real.pi ^ 2) * x ^ 2 * (Real.log |x| + (-2 * Real.log scale - c)) := by
    funext x
    unfold Spec.cw
    congr 1
    ring
  rw [e]
  exact bounded_cut ht 2 _ _

theorem bounded_cw1 {t : ℝ} (ht : 0 < t) (scale c : ℝ) : Bounded (cw1 t scale c) := by
  have e : cw1 t scale c = fun x => if |x| < t then 0 else
      1 / (32 * Real.pi ^ 2) * x ^ 1 * (Real.log |x| + (-2 * Real.log scale - c + 1 / 2)) := by
    funext x
    unfold cw1
    congr 1
    ring
  rw [e]
  exact bounded_cut ht 1 _ _

/-- A squared mass is zero or above the threshold. -/
def Above (t x : ℝ) : Prop := x = 0 ∨ t < x

theorem Above.ne {t x : ℝ} (ht : 0 < t) (h : Above t x) : |x| ≠ t := by
  rcases h with rfl | h
  · rw [abs_zero]; exact ht.ne
  · rw [abs_of_pos (ht.trans h)]; exact h.ne'

theorem Above.nonneg {t x : ℝ} (ht : 0 < t) (h : Above t x) : 0 ≤ x := by
  rcases h with rfl | h
  · exact le_rfl
  · exact (ht.trans h).le

theorem Above.eventually {t x : ℝ} (ht : 0 < t) (h : Above t x) (scale c : ℝ) :
    ∀ᶠ y in 𝓝 x, HasDerivAt (cw t scale c) (cw1 t scale c y) y := by
  rcases h with rfl | h
  · filter_upwards [abs_lt_eventually (t := t) (x := 0) (by rwa [abs_zero])] with y hy
    exact hasDerivAt_cw ht hy.ne scale c
  · filter_upwards [lt_abs_eventually (t := t) (x := x) (by rwa [abs_of_pos (ht.trans h)])] with y hy
    exact hasDerivAt_cw ht hy.ne' scale c

/-- The summand of `WeinbergFirstDerivative`. -/
theorem cw1_eq {t x : ℝ} (ht : 0 < t) (h : Above t x) {scale : ℝ} (hs : 0 < scale) (c : ℝ) :
    cw1 t scale c x = 1 / (32 * Real.pi ^ 2) *
      (if x ≠ 0 then x * (Real.log (x / scale ^ 2) - c + 1 / 2) else 0) := by
  rcases h with rfl | h
  · rw [cw1, abs_zero, if_pos ht]; simp
  · have hx := ht.trans h
    rw [cw1, abs_of_pos hx, if_neg (not_lt.2 h.le), if_pos hx.ne',
      Real.log_div hx.ne' (by positivity), Real.log_pow]
    push_cast
    ring

open Verif.Potential in
/-- The bracket of `WeinbergSecondDerivative` is the slope of the derivative between two masses. -/
theorem slope_eq {t a b : ℝ} (ht : 0 < t) (ha : Above t a) (hb : Above t b) (scale c : ℝ)
    (h : (a = b ∧ (c = 3 / 2 ∨ a ≠ 0)) ∨ 1 / 10 ^ 5 < |a - b|) :
    slope (cw1 t scale c) (cw2 t scale c) a b =
      1 / (32 * Real.pi ^ 2) * (fbaseValue scale a b - c + 1 / 2) := by
  unfold slope fbaseValue fbase fk lg
  rcases h with ⟨rfl, h⟩ | h
  · rcases ha with rfl | ha
    · rcases h with rfl | h
      · simp [cw2, ht]
        norm_num
      · exact absurd rfl h
    · have hp := ht.trans ha
      rw [if_neg (fun h : a = 0 ∧ a = 0 => hp.ne' h.1), if_pos rfl,
        if_neg (show ¬ (|a - a| > 1 / 10 ^ 5) by rw [sub_self, abs_zero]; norm_num)]
      simp only [List.mem_singleton, exists_eq_left, not_lt.2 hp.le, if_false, hp.ne']
      rw [cw2, abs_of_pos hp, if_neg (not_lt.2 ha.le)]
      ring
  · have hab : a ≠ b := by
      rintro rfl
      rw [sub_self, abs_zero] at h
      norm_num at h
    rw [if_neg hab]
    rcases ha with rfl | ha
    · have hb : t < b := hb.resolve_left (Ne.symm hab)
      have hp := ht.trans hb
      simp only [hp.ne', and_false, if_false, gt_iff_lt, h, if_true]
      simp only [List.mem_singleton, exists_eq_left, not_lt.2 hp.le, if_false]
      rw [cw1, cw1, abs_zero, if_pos ht, abs_of_pos hp, if_neg (not_lt.2 hb.le)]
      field_simp
      ring
    · have hp := ht.trans ha
      rcases hb with rfl | hb
      · simp only [hp.ne', false_and, if_false, gt_iff_lt, h, if_true]
        simp only [List.mem_singleton, exists_eq_left, not_lt.2 hp.le, if_false]
        rw [cw1, cw1, abs_zero, if_pos ht, abs_of_pos hp, if_neg (not_lt.2 ha.le)]
        field_simp
        ring
      · have hq := ht.trans hb
        have hd : a - b ≠ 0 := sub_ne_zero.2 hab
        simp only [hp.ne', hq.ne', false_and, if_false, gt_iff_lt, h, if_true]
        rw [if_neg (by simp [not_lt.2 hp.le, not_lt.2 hq.le])]
        rw [cw1, cw1, abs_of_pos hp, abs_of_pos hq, if_neg (not_lt.2 ha.le), if_neg (not_lt.2 hb.le)]
        dsimp only
        field_simp
        ring

end

end Verif.Weinberg
