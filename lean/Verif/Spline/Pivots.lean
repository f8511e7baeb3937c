import Mathlib.Algebra.Order.Field.Basic
import Mathlib.Tactic.Linarith
import Mathlib.Tactic.LinearCombination
import Mathlib.Tactic.Positivity
import Verif.Spline.BandLemmas
import Verif.Spline.Model

/-!
# The equations for the coefficients of a cubic spline can always be solved
-/

set_option linter.unusedSectionVars false
set_option linter.unusedSimpArgs false

namespace Verif.Spline

variable {K : Type} [Field K] [LinearOrder K] [IsStrictOrderedRing K]

theorem stage_zero (A : Band K) (hA : ∀ i j, (j + A.nl < i ∨ i + A.nu < j) → A.a i j = 0)
    (i j : Nat) (hi : i < A.dim) (hj : j < A.dim) (hd : A.a i i ≠ 0) :
    stage A 0 i j = A.a i j / A.a i i := by
  simp only [stage, List.range_zero, List.foldl_nil]
  rw [normRows_eq, if_pos hi, normRow_eq, if_pos rfl]
  split_ifs with h1 h2
  · rw [h1, div_self hd]
  · ring
  · rw [hA i j (by omega), zero_div]

/-- A row with no entries left of column `k` is as it was before the first `k` passes. -/
theorem stage_untouched (A : Band K) (hA : ∀ i j, (j + A.nl < i ∨ i + A.nu < j) → A.a i j = 0)
    (i k : Nat) (hi : i < A.dim) (hk : k ≤ i) (hz : ∀ m < k, stage A 0 i m = 0) (j : Nat)
    (hj : j < A.dim) : stage A k i j = stage A 0 i j := by
  induction k generalizing j with
  | zero => rfl
  | succ k ih =>
    have ih := ih (by omega) (fun m hm => hz m (by omega))
    by_cases h : j ≤ k
    · rcases Nat.lt_or_ge j k with h' | h'
      · rw [stage_frozen_step _ _ _ _ (Or.inr h'), ih j hj]
      · obtain rfl : j = k := by omega
        rw [stage_mult A hA j i (by omega) hi, ih j hj, hz j (by omega), zero_div]
    · rw [stage_elim A hA k i j (by omega) hi (by omega) hj, ih j hj, ih k (by omega),
        hz k (by omega)]
      simp

/-- Strictly increasing abscissas. -/
def Increasing (n : Nat) (x : Nat → K) : Prop := ∀ i, i + 1 < n → x i < x (i + 1)

theorem Increasing.lt {n : Nat} {x : Nat → K} (h : Increasing n x) {i j : Nat} (hij : i < j)
    (hj : j < n) : x i < x j := by
  induction j, hij using Nat.le_induction with
  | base => exact h i hj
  | succ j hij ih => exact lt_trans (ih (by omega)) (h j hj)

theorem system_band (s : Spl K) (n : Nat) (x : Nat → K) (hn : 3 ≤ n) (i j : Nat)
    (h : j + (system s n x).nl < i ∨ i + (system s n x).nu < j) : (system s n x).a i j = 0 := by
  simp only [system] at h ⊢
  simp only [matrix]
  by_cases h0 : i = 0
  · subst h0
    simp only [if_true]
    cases hl : s.left <;> rw [hl] at h <;> simp only [reduceCtorEq, if_true, if_false] at h ⊢
    · rw [if_neg (by omega), if_neg (by omega)]
    · rw [if_neg (by omega)]
    · rw [if_neg (by omega), if_neg (by omega), if_neg (by omega)]
  · simp only [h0, if_false]
    have hl1 : 1 ≤ (if s.left = Bd.notAKnot then 2 else 1) := by split_ifs <;> omega
    have hr1 : 1 ≤ (if s.right = Bd.notAKnot then 2 else 1) := by split_ifs <;> omega
    by_cases h1 : i = n - 1
    · subst h1
      simp only [if_true]
      cases hl : s.right <;> rw [hl] at h <;> simp only [reduceCtorEq, if_true, if_false] at h ⊢
      · rw [if_neg (by omega), if_neg (by omega)]
      · rw [if_neg (by omega)]
      · rw [if_neg (by omega), if_neg (by omega), if_neg (by omega)]
    · simp only [h1, if_false]
      split_ifs <;> first | omega | rfl

theorem system_diag (s : Spl K) (n : Nat) (x : Nat → K) (hn : 3 ≤ n)
    (hx : Increasing n x) (i : Nat) (hi : i < n) :
    (system s n x).a i i ≠ 0 := by
  have h01 : x 0 < x 1 := hx 0 (by omega)
  have h12 : x 1 < x 2 := hx 1 (by omega)
  have hl1 : x (n - 2) < x (n - 1) := hx.lt (by omega) (by omega)
  have hl2 : x (n - 3) < x (n - 2) := hx.lt (by omega) (by omega)
  simp only [system, matrix]
  by_cases h0 : i = 0
  · subst h0
    simp only [if_true]
    cases s.left <;> dsimp only
    · exact (by linarith : (0 : K) < 2 * (x 1 - x 0)).ne'
    · norm_num
    · exact (by linarith : -(x 2 - x 1) < 0).ne
  · simp only [h0, if_false]
    by_cases h1 : i = n - 1
    · subst h1
      simp only [if_true]
      cases s.right <;> dsimp only
      · exact (by linarith : (0 : K) < 2 * (x (n - 1) - x (n - 2))).ne'
      · norm_num
      · rw [if_neg (by omega), if_neg (by omega)]
        exact (by linarith : -(x (n - 2) - x (n - 3)) < 0).ne
    · have hc : i < n - 1 := by omega
      simp only [h1, hc, if_false, if_true]
      rw [if_neg (by omega)]
      have : x (i - 1) < x (i + 1) := hx.lt (by omega) (by omega)
      exact (by linarith : (0 : K) < 2 / 3 * (x (i + 1) - x (i - 1))).ne'

/-- The rows of inner points after the preconditioning. -/
theorem stage_zero_inner (s : Spl K) (n : Nat) (x : Nat → K) (hn : 3 ≤ n)
    (hx : Increasing n x) (i j : Nat) (h0 : i ≠ 0) (hi : i < n - 1) (hj : j < n) :
    stage (system s n x) 0 i j =
      if j + 1 = i then (x i - x (i - 1)) / (2 * (x (i + 1) - x (i - 1)))
      else if j = i then 1
      else if j = i + 1 then (x (i + 1) - x i) / (2 * (x (i + 1) - x (i - 1))) else 0 := by
  rw [stage_zero _ (system_band s n x hn) i j (by simp only [system]; omega)
    (by simpa only [system] using hj) (system_diag s n x hn hx i (by omega))]
  have hm : ∀ j, (system s n x).a i j = (if j + 1 = i then 1 / 3 * (x i - x (i - 1))
      else if j = i then 2 / 3 * (x (i + 1) - x (i - 1))
      else if j = i + 1 then 1 / 3 * (x (i + 1) - x i) else 0) := by
    intro j
    simp only [system, matrix, h0, if_false, hi, if_true]
    rw [if_neg (by omega)]
  have hp : x (i + 1) - x (i - 1) ≠ 0 := by
    have := hx.lt (show i - 1 < i + 1 by omega) (by omega)
    exact (by linarith : (0 : K) < x (i + 1) - x (i - 1)).ne'
  rw [hm, hm, if_neg (show ¬ i + 1 = i by omega), if_pos rfl]
  split_ifs
  · field_simp
  · field_simp
  · field_simp
  · rw [zero_div]

/-- Bounds of the normalised rows. -/
theorem inner_bounds {n : Nat} {x : Nat → K} (hx : Increasing n x) {i : Nat} (h0 : i ≠ 0)
    (hi : i < n - 1) :
    0 < (x i - x (i - 1)) / (2 * (x (i + 1) - x (i - 1))) ∧
    0 < (x (i + 1) - x i) / (2 * (x (i + 1) - x (i - 1))) ∧
    (x i - x (i - 1)) / (2 * (x (i + 1) - x (i - 1)))
      + (x (i + 1) - x i) / (2 * (x (i + 1) - x (i - 1))) = 1 / 2 := by
  have h1 : x (i - 1) < x i := hx.lt (by omega) (by omega)
  have h2 : x i < x (i + 1) := hx i (by omega)
  have h3 : 0 < x (i + 1) - x (i - 1) := by linarith
  refine ⟨div_pos (by linarith) (by linarith), div_pos (by linarith) (by linarith), ?_⟩
  rw [← add_div, div_eq_div_iff (by positivity) (by norm_num)]
  ring

/-- The state of the elimination when it reaches an inner row. -/
theorem pivot_inner (s : Spl K) (n : Nat) (x : Nat → K) (hn : 3 ≤ n) (hx : Increasing n x)
    (k : Nat) (h1 : 1 ≤ k) (hk : k < n - 1) :
    0 < stage (system s n x) k k k ∧
    -1 < stage (system s n x) k k (k + 1) / stage (system s n x) k k k ∧
    stage (system s n x) k k (k + 1) / stage (system s n x) k k k < 1 ∧
    (∀ j, k + 1 < j → j < n → stage (system s n x) k k j = 0) ∧
    (2 ≤ k → 0 < stage (system s n x) k k (k + 1) / stage (system s n x) k k k) := by
  have hA := system_band s n x hn
  induction k, h1 using Nat.le_induction with
  | base =>
    obtain ⟨hα, hγ, hαγ⟩ := inner_bounds hx (i := 1) (by omega) hk
    have h01 : x 0 < x 1 := hx 0 (by omega)
    have h12 : x 1 < x 2 := hx 1 (by omega)
    have e1 := stage_elim (system s n x) hA 0 1 1 (by omega) (by simp only [system]; omega)
      (by omega) (by simp only [system]; omega)
    have e2 := stage_elim (system s n x) hA 0 1 2 (by omega) (by simp only [system]; omega)
      (by omega) (by simp only [system]; omega)
    have e3 : ∀ j, 2 < j → j < n → stage (system s n x) 1 1 j = 0 := by
      intro j hj hjn
      rw [show 1 = 0 + 1 from rfl, stage_elim (system s n x) hA 0 (0 + 1) j (by omega)
        (by simp only [system]; omega) (by omega) (by simpa only [system] using hjn),
        stage_zero_inner s n x hn hx _ _ (by omega) hk hjn, stage_band _ hA 0 0 j, mul_zero, sub_zero,
        if_neg (by omega), if_neg (by omega), if_neg (by omega)]
      right
      have : (system s n x).nu ≤ 2 := by simp only [system]; split_ifs <;> omega
      omega
    rw [stage_zero_inner s n x hn hx 1 1 (by omega) hk (by omega),
      stage_zero_inner s n x hn hx 1 0 (by omega) hk (by omega)] at e1
    rw [stage_zero_inner s n x hn hx 1 2 (by omega) hk (by omega),
      stage_zero_inner s n x hn hx 1 0 (by omega) hk (by omega)] at e2
    have hd0 := system_diag s n x hn hx 0 (by omega)
    have z : ∀ j < n, stage (system s n x) 0 0 j = (system s n x).a 0 j / (system s n x).a 0 0 :=
      fun j hj => stage_zero _ hA 0 j (by simp only [system]; omega) (by simpa only [system] using hj)
        hd0
    rw [z 0 (by omega), z 1 (by omega), div_self hd0] at e1
    rw [z 0 (by omega), z 2 (by omega), div_self hd0] at e2
    simp only [Nat.reduceAdd, Nat.reduceEqDiff, if_true, if_false, div_one, Nat.reduceSub,
      Nat.succ_ne_self, zero_add, OfNat.ofNat_ne_zero, OfNat.ofNat_ne_one] at e1 e2
    simp only [Nat.reduceAdd, Nat.reduceSub] at hα hγ hαγ
    set α := (x 1 - x 0) / (2 * (x 2 - x 0)) with hαd
    set γ := (x 2 - x 1) / (2 * (x 2 - x 0)) with hγd
    rw [show (1 : Nat) + 1 = 2 from rfl, e1, e2]
    refine ⟨?_, ?_, ?_, e3, by omega⟩
    all_goals
      simp only [system, matrix, if_true]
      cases hl : s.left <;> simp only [if_true, if_false, Nat.reduceEqDiff, OfNat.ofNat_ne_zero,
        OfNat.ofNat_ne_one, one_ne_zero, zero_div, mul_zero, sub_zero, zero_sub, Nat.succ_ne_self]
    -- the pivot is positive
    · rw [show 1 * (x 1 - x 0) / (2 * (x 1 - x 0)) = 1 / 2 by
        have : x 1 - x 0 ≠ 0 := (sub_pos.2 h01).ne'
        field_simp]
      linarith
    · norm_num
    · have h3 : (x 2 - x 0) / -(x 2 - x 1) < 0 := div_neg_of_pos_of_neg (by linarith) (by linarith)
      nlinarith
    -- the ratio is above -1
    · rw [show 1 * (x 1 - x 0) / (2 * (x 1 - x 0)) = 1 / 2 by
        have : x 1 - x 0 ≠ 0 := (sub_pos.2 h01).ne'
        field_simp]
      rw [lt_div_iff₀ (by linarith)]
      linarith
    · rw [lt_div_iff₀ (by linarith)]
      linarith
    · have h3 : (x 2 - x 0) / -(x 2 - x 1) < 0 := div_neg_of_pos_of_neg (by linarith) (by linarith)
      have h4 : 0 < x 2 - x 1 := by linarith
      rw [lt_div_iff₀ (by nlinarith)]
      have h5 : (x 2 - x 0) / -(x 2 - x 1) = -(1 + (x 1 - x 0) / (x 2 - x 1)) := by
        field_simp; ring
      have h6 : -(x 1 - x 0) / -(x 2 - x 1) = (x 1 - x 0) / (x 2 - x 1) := by
        rw [neg_div_neg_eq]
      rw [h5, h6]
      have h7 : 0 < (x 1 - x 0) / (x 2 - x 1) := div_pos (by linarith) h4
      nlinarith
    -- the ratio is below 1
    · rw [show 1 * (x 1 - x 0) / (2 * (x 1 - x 0)) = 1 / 2 by
        have : x 1 - x 0 ≠ 0 := (sub_pos.2 h01).ne'
        field_simp]
      rw [div_lt_iff₀ (by linarith)]
      linarith
    · rw [div_lt_iff₀ (by linarith)]
      linarith
    · have h3 : (x 2 - x 0) / -(x 2 - x 1) < 0 := div_neg_of_pos_of_neg (by linarith) (by linarith)
      have h4 : 0 < x 2 - x 1 := by linarith
      rw [div_lt_iff₀ (by nlinarith)]
      have h5 : (x 2 - x 0) / -(x 2 - x 1) = -(1 + (x 1 - x 0) / (x 2 - x 1)) := by
        field_simp; ring
      have h6 : -(x 1 - x 0) / -(x 2 - x 1) = (x 1 - x 0) / (x 2 - x 1) := by
        rw [neg_div_neg_eq]
      rw [h5, h6]
      have h7 : 0 < (x 1 - x 0) / (x 2 - x 1) := div_pos (by linarith) h4
      nlinarith
  | succ k h1 ih =>
    obtain ⟨p1, p2, p3, p4, p5⟩ := ih (by omega)
    obtain ⟨hα, hγ, hαγ⟩ := inner_bounds hx (i := k + 1) (by omega) hk
    have hz : ∀ m < k, stage (system s n x) 0 (k + 1) m = 0 := by
      intro m hm
      rw [stage_zero_inner s n x hn hx (k + 1) m (by omega) hk (by omega), if_neg (by omega),
        if_neg (by omega), if_neg (by omega)]
    have hu : ∀ j < n, stage (system s n x) k (k + 1) j = stage (system s n x) 0 (k + 1) j :=
      fun j hj => stage_untouched _ hA (k + 1) k (by simp only [system]; omega) (by omega) hz j
        (by simpa only [system] using hj)
    have e : ∀ j, k < j → j < n → stage (system s n x) (k + 1) (k + 1) j
        = stage (system s n x) 0 (k + 1) j - stage (system s n x) 0 (k + 1) k
          / stage (system s n x) k k k * stage (system s n x) k k j := by
      intro j hj hjn
      rw [stage_elim (system s n x) hA k (k + 1) j (by omega) (by simp only [system]; omega) hj
        (by simpa only [system] using hjn), hu j hjn, hu k (by omega)]
    have z := fun j hj => stage_zero_inner s n x hn hx (k + 1) j (by omega) hk hj
    have e1 := e (k + 1) (by omega) (by omega)
    have e2 := e (k + 1 + 1) (by omega) (by omega)
    rw [z (k + 1) (by omega), z k (by omega), if_neg (by omega), if_pos rfl, if_pos rfl] at e1
    rw [z (k + 1 + 1) (by omega), p4 (k + 1 + 1) (by omega) (by omega), mul_zero, sub_zero,
      if_neg (by omega), if_neg (by omega), if_pos rfl] at e2
    set α := (x (k + 1) - x (k + 1 - 1)) / (2 * (x (k + 1 + 1) - x (k + 1 - 1)))
    set γ := (x (k + 1 + 1) - x (k + 1)) / (2 * (x (k + 1 + 1) - x (k + 1 - 1)))
    have e1' : stage (system s n x) (k + 1) (k + 1) (k + 1)
        = 1 - α * (stage (system s n x) k k (k + 1) / stage (system s n x) k k k) := by
      rw [e1]; ring
    set r := stage (system s n x) k k (k + 1) / stage (system s n x) k k k
    have hP : 1 - α < 1 - α * r := by nlinarith
    rw [e1', e2]
    refine ⟨by linarith, ?_, ?_, ?_, ?_⟩
    · have : 0 < γ / (1 - α * r) := div_pos hγ (by linarith)
      linarith
    · rw [div_lt_iff₀ (by linarith)]; linarith
    · intro j hj hjn
      rw [e j (by omega) hjn, z j hjn, if_neg (by omega), if_neg (by omega), if_neg (by omega),
        p4 j (by omega) hjn]
      simp
    · intro _; exact div_pos hγ (by linarith)

/-- No pivot vanishes. -/
theorem pivot_ne_zero (s : Spl K) (n : Nat) (x : Nat → K) (hn : 3 ≤ n)
    (h4 : s.right = .notAKnot → 4 ≤ n) (hx : Increasing n x) (k : Nat) (hk : k < n) :
    stage (system s n x) k k k ≠ 0 := by
  have hA := system_band s n x hn
  rcases Nat.eq_zero_or_pos k with rfl | h0
  · rw [stage_zero _ hA 0 0 (by simp only [system]; omega) (by simp only [system]; omega)
      (system_diag s n x hn hx 0 (by omega)), div_self (system_diag s n x hn hx 0 (by omega))]
    exact one_ne_zero
  rcases Nat.lt_or_ge k (n - 1) with h1 | h1
  · exact (pivot_inner s n x hn hx k h0 h1).1.ne'
  obtain rfl : k = n - 1 := by omega
  obtain ⟨m, rfl⟩ : ∃ m, n = m + 3 := ⟨n - 3, by omega⟩
  simp only [show m + 3 - 1 = m + 2 by omega] at *
  obtain ⟨p1, p2, p3, p4, p5⟩ := pivot_inner s (m + 3) x hn hx (m + 1) (by omega) (by omega)
  have hd := system_diag s (m + 3) x hn hx (m + 2) (by omega)
  have z : ∀ j < m + 3, stage (system s (m + 3) x) 0 (m + 2) j
      = (system s (m + 3) x).a (m + 2) j / (system s (m + 3) x).a (m + 2) (m + 2) :=
    fun j hj => stage_zero _ hA (m + 2) j (by simp only [system]; omega)
      (by simpa only [system] using hj) hd
  have e := stage_elim (system s (m + 3) x) hA (m + 1) (m + 2) (m + 2) (by omega)
    (by simp only [system]; omega) (by omega) (by simp only [system]; omega)
  have hl1 : x (m + 1) < x (m + 2) := hx _ (by omega)
  have hl2 : x m < x (m + 1) := hx _ (by omega)
  by_cases hr : s.right = .notAKnot
  · have h4 := h4 hr
    obtain ⟨q1, q2, q3, q4, q5⟩ := pivot_inner s (m + 3) x hn hx m (by omega) (by omega)
    have hz : ∀ l < m, stage (system s (m + 3) x) 0 (m + 2) l = 0 := by
      intro l hl
      rw [z l (by omega)]
      simp only [system, matrix, hr, show m + 3 - 1 = m + 2 by omega, show m + 3 - 3 = m by omega,
        show m + 3 - 2 = m + 1 by omega, if_true]
      rw [if_neg (by omega), if_neg (by omega), if_neg (by omega), if_neg (by omega), zero_div]
    have hu : ∀ j < m + 3, stage (system s (m + 3) x) m (m + 2) j
        = stage (system s (m + 3) x) 0 (m + 2) j :=
      fun j hj => stage_untouched _ hA (m + 2) m (by simp only [system]; omega) (by omega) hz j
        (by simpa only [system] using hj)
    have f1 := stage_elim (system s (m + 3) x) hA m (m + 2) (m + 1) (by omega)
      (by simp only [system]; omega) (by omega) (by simp only [system]; omega)
    have f2 := stage_elim (system s (m + 3) x) hA m (m + 2) (m + 2) (by omega)
      (by simp only [system]; omega) (by omega) (by simp only [system]; omega)
    rw [q4 (m + 2) (by omega) (by omega), mul_zero, sub_zero, hu _ (by omega), z _ (by omega),
      div_self hd] at f2
    rw [hu _ (by omega), hu _ (by omega), z _ (by omega), z m (by omega)] at f1
    rw [f2, f1] at e
    have a0 : (system s (m + 3) x).a (m + 2) m = -(x (m + 2) - x (m + 1)) := by
      simp [system, matrix, hr]
    have a1 : (system s (m + 3) x).a (m + 2) (m + 1) = x (m + 2) - x m := by
      simp [system, matrix, hr]
    have a2 : (system s (m + 3) x).a (m + 2) (m + 2) = -(x (m + 1) - x m) := by
      simp [system, matrix, hr]
    rw [a0, a1, a2] at e
    have e' : stage (system s (m + 3) x) (m + 2) (m + 2) (m + 2)
        = 1 + ((x (m + 2) - x m) / (x (m + 1) - x m)
          + (x (m + 2) - x (m + 1)) / (x (m + 1) - x m)
            * (stage (system s (m + 3) x) m m (m + 1) / stage (system s (m + 3) x) m m m))
          * (stage (system s (m + 3) x) (m + 1) (m + 1) (m + 2)
            / stage (system s (m + 3) x) (m + 1) (m + 1) (m + 1)) := by
      rw [e, neg_div_neg_eq, div_neg]
      ring
    have p5 := p5 (by omega)
    simp only [show m + 1 + 1 = m + 2 by omega] at p5 p2 p3
    set r := stage (system s (m + 3) x) m m (m + 1) / stage (system s (m + 3) x) m m m
    set r' := stage (system s (m + 3) x) (m + 1) (m + 1) (m + 2)
      / stage (system s (m + 3) x) (m + 1) (m + 1) (m + 1)
    have hb : 0 < (x (m + 2) - x (m + 1)) / (x (m + 1) - x m) :=
      div_pos (by linarith) (by linarith)
    have hs : (x (m + 2) - x m) / (x (m + 1) - x m)
        = 1 + (x (m + 2) - x (m + 1)) / (x (m + 1) - x m) := by
      have : x (m + 1) - x m ≠ 0 := (by linarith : (0 : K) < x (m + 1) - x m).ne'
      field_simp; ring
    have hpos : 0 < (x (m + 2) - x m) / (x (m + 1) - x m)
        + (x (m + 2) - x (m + 1)) / (x (m + 1) - x m) * r := by
      rw [hs]; nlinarith
    rw [e']
    have := mul_pos hpos p5
    exact ne_of_gt (by linarith)
  · have hz : ∀ l < m + 1, stage (system s (m + 3) x) 0 (m + 2) l = 0 := by
      intro l hl
      rw [z l (by omega)]
      cases h : s.right with
      | notAKnot => exact absurd h hr
      | first =>
        simp only [system, matrix, h, show m + 3 - 1 = m + 2 by omega,
          show m + 3 - 2 = m + 1 by omega, if_true]
        rw [if_neg (by omega), if_neg (by omega), if_neg (by omega), zero_div]
      | second =>
        simp only [system, matrix, h, show m + 3 - 1 = m + 2 by omega, if_true]
        rw [if_neg (by omega), if_neg (by omega), zero_div]
    have hu : ∀ j < m + 3, stage (system s (m + 3) x) (m + 1) (m + 2) j
        = stage (system s (m + 3) x) 0 (m + 2) j :=
      fun j hj => stage_untouched _ hA (m + 2) (m + 1) (by simp only [system]; omega) (by omega)
        hz j (by simpa only [system] using hj)
    rw [hu _ (by omega), hu _ (by omega), z _ (by omega), div_self hd, z _ (by omega)] at e
    simp only [show m + 1 + 1 = m + 2 by omega] at e p2 p3
    set r := stage (system s (m + 3) x) (m + 1) (m + 1) (m + 2)
      / stage (system s (m + 3) x) (m + 1) (m + 1) (m + 1) with hrd
    have e' : stage (system s (m + 3) x) (m + 2) (m + 2) (m + 2)
        = 1 - (system s (m + 3) x).a (m + 2) (m + 1) / (system s (m + 3) x).a (m + 2) (m + 2) * r := by
      rw [e, hrd]; ring
    rw [e']
    cases h : s.right with
    | notAKnot => exact absurd h hr
    | first =>
      have : (system s (m + 3) x).a (m + 2) (m + 1) / (system s (m + 3) x).a (m + 2) (m + 2)
          = 1 / 2 := by
        have h3 : x (m + 2) - x (m + 1) ≠ 0 := (by linarith : (0 : K) < x (m + 2) - x (m + 1)).ne'
        simp only [system, matrix, h, show m + 3 - 1 = m + 2 by omega,
          show m + 3 - 2 = m + 1 by omega, if_true]
        rw [if_neg (by omega), if_neg (by omega), if_neg (by omega)]
        field_simp
      rw [this]
      exact (by linarith : (0 : K) < 1 - 1 / 2 * r).ne'
    | second =>
      have : (system s (m + 3) x).a (m + 2) (m + 1) = 0 := by
        simp [system, matrix, h]
      rw [this]; simp

/-- The coefficients `c` solve the equations of the spline. -/
theorem cspline_solves (s : Spl K) (n : Nat) (x y : Nat → K) (hn : 3 ≤ n)
    (h4 : s.right = .notAKnot → 4 ≤ n) (hx : Increasing n x) (i : Nat) (hi : i < n) :
    ∑ j ∈ Finset.range n, matrix s n x i j * luSolve (system s n x) (rhs s n x y) j
      = rhs s n x y i :=
  luSolve_solves (system s n x) (system_band s n x hn) (system_diag s n x hn hx)
    (pivot_ne_zero s n x hn h4 hx) (rhs s n x y) i hi

end Verif.Spline
