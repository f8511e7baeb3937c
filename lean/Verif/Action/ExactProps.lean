import Mathlib.Analysis.SpecialFunctions.Sqrt
import Mathlib.Analysis.SpecialFunctions.Trigonometric.DerivHyp
import Mathlib.Topology.Order.IntermediateValue
import Mathlib.Topology.Order.Real
import Mathlib.Tactic.FieldSimp
import Mathlib.Tactic.Ring
import Mathlib.Tactic.Linarith
import Mathlib.Tactic.LinearCombination
import Mathlib.Tactic.Positivity
import Mathlib.Tactic.NormNum
import Mathlib.Analysis.Calculus.Deriv.Slope
import Verif.Action.Exact

/-!
# C68: the analytic start of the integration
-/

set_option linter.unusedSectionVars false
set_option linter.unusedSimpArgs false

namespace Verif.Action

open scoped BigOperators Topology
open Filter

/-- `u` with derivative `u'` solves the equation of motion with friction `alpha` and force `F` at all
positive radii. -/
def Solves (alpha : ℝ) (F : ℝ → ℝ) (u u' : ℝ → ℝ) : Prop :=
  ∀ rho, 0 < rho → HasDerivAt u (u' rho) rho ∧ HasDerivAt u' (F (u rho) - alpha / rho * u' rho) rho

/-- The value at the centre. -/
def StartsAt (u : ℝ → ℝ) (l0 : ℝ) : Prop := Tendsto u (𝓝[>] 0) (𝓝 l0)

theorem rpow_three_half {H : ℝ} (h : 0 < H) : H ^ (3 / 2 : ℝ) = H * √H := by
  rw [show (3 / 2 : ℝ) = 1 + 1 / 2 by norm_num, Real.rpow_add h, Real.rpow_one, Real.sqrt_eq_rpow]

theorem hasDerivAt_sinh_mul (k r : ℝ) :
    HasDerivAt (fun r => Real.sinh (k * r)) (k * Real.cosh (k * r)) r := by
  have h := (Real.hasDerivAt_sinh (k * r)).comp (h₂ := Real.sinh) r
    ((hasDerivAt_id' r).const_mul k)
  exact h.congr_deriv (by ring)

theorem hasDerivAt_cosh_mul (k r : ℝ) :
    HasDerivAt (fun r => Real.cosh (k * r)) (k * Real.sinh (k * r)) r := by
  have h := (Real.hasDerivAt_cosh (k * r)).comp (h₂ := Real.cosh) r
    ((hasDerivAt_id' r).const_mul k)
  exact h.congr_deriv (by ring)

theorem hasDerivAt_sin_mul (k r : ℝ) :
    HasDerivAt (fun r => Real.sin (k * r)) (k * Real.cos (k * r)) r := by
  have h := (Real.hasDerivAt_sin (k * r)).comp (h₂ := Real.sin) r
    ((hasDerivAt_id' r).const_mul k)
  exact h.congr_deriv (by ring)

theorem hasDerivAt_cos_mul (k r : ℝ) :
    HasDerivAt (fun r => Real.cos (k * r)) (-(k * Real.sin (k * r))) r := by
  have h := (Real.hasDerivAt_cos (k * r)).comp (h₂ := Real.cos) r
    ((hasDerivAt_id' r).const_mul k)
  exact h.congr_deriv (by ring)

/-- `a + b s(r)/r` with `s'' = q s` solves the equation with friction 2. -/
theorem solves_over (a b q : ℝ) (s s' : ℝ → ℝ) (h1 : ∀ r, HasDerivAt s (s' r) r)
    (h2 : ∀ r, HasDerivAt s' (q * s r) r) :
    Solves 2 (fun l => q * (l - a)) (fun r => a + b * s r / r)
      (fun r => b * s' r / r - b * s r / r ^ 2) := by
  intro r hr
  have hr' : r ≠ 0 := hr.ne'
  constructor
  · refine ((((h1 r).const_mul b).fun_div (hasDerivAt_id' r) hr').const_add a).congr_deriv ?_
    field_simp
  · refine ((((h2 r).const_mul b).fun_div (hasDerivAt_id' r) hr').fun_sub
      (((h1 r).const_mul b).fun_div ((hasDerivAt_id' r).fun_pow 2) (pow_ne_zero 2 hr'))).congr_deriv ?_
    field_simp
    ring

theorem startsAt_over (a b : ℝ) (s : ℝ → ℝ) (c : ℝ) (h1 : HasDerivAt s c 0) (h0 : s 0 = 0) :
    StartsAt (fun r => a + b * s r / r) (a + b * c) := by
  have h := h1.tendsto_slope_zero_right
  simp only [zero_add, h0, sub_zero, smul_eq_mul] at h
  refine ((h.const_mul b).const_add a).congr' ?_
  filter_upwards [self_mem_nhdsWithin] with r hr
  have : r ≠ 0 := ne_of_gt hr
  field_simp

theorem Solves.congr {alpha : ℝ} {F G : ℝ → ℝ} {u u' v v' : ℝ → ℝ} (h : Solves alpha F u u')
    (hF : ∀ l, F l = G l) (hu : ∀ r, 0 < r → u r = v r) (hu' : ∀ r, 0 < r → u' r = v' r) :
    Solves alpha G v v' := by
  intro r hr
  obtain ⟨a, b⟩ := h r hr
  have e : ∀ᶠ x in 𝓝 r, 0 < x := lt_mem_nhds hr
  rw [← hu r hr, ← hu' r hr, ← hF]
  exact ⟨a.congr_of_eventuallyEq (e.mono fun x hx => (hu x hx).symm),
    b.congr_of_eventuallyEq (e.mono fun x hx => (hu' x hx).symm)⟩

theorem StartsAt.congr {u v : ℝ → ℝ} {l : ℝ} (h : StartsAt u l) (hu : ∀ r, 0 < r → u r = v r) :
    StartsAt v l := by
  refine Tendsto.congr' ?_ h
  filter_upwards [self_mem_nhdsWithin] with r hr
  exact hu r hr

/-- The solution around the minimum, three dimensions: it starts at `lmin + delta` and solves the
equation of motion for the force `H (l - lmin)`, and the velocity returned is its derivative. -/
theorem C68_minimum_3d (lmin delta H : ℝ) (hH : 0 < H) :
    Solves 2 (fun l => H * (l - lmin)) (minSol2 lmin delta H) (minSol2' delta H) ∧
    StartsAt (minSol2 lmin delta H) (lmin + delta) := by
  have hk : (0 : ℝ) < √H := Real.sqrt_pos.2 hH
  have hk2 : √H * √H = H := Real.mul_self_sqrt hH.le
  constructor
  · have h := solves_over lmin (delta / √H) H (fun r => Real.sinh (√H * r))
      (fun r => √H * Real.cosh (√H * r)) (hasDerivAt_sinh_mul _)
      (fun r => ((hasDerivAt_cosh_mul (√H) r).const_mul (√H)).congr_deriv (by
        rw [← mul_assoc, hk2]))
    refine h.congr (fun l => rfl) (fun r hr => ?_) (fun r hr => ?_)
    · have := hr.ne'
      simp only [minSol2]; field_simp
    · have := hr.ne'
      simp only [minSol2', mul_comm r]; field_simp
  · have h := startsAt_over lmin (delta / √H) (fun r => Real.sinh (√H * r)) (√H)
      ((hasDerivAt_sinh_mul (√H) 0).congr_deriv (by simp)) (by simp)
    rw [show lmin + delta / √H * √H = lmin + delta by field_simp] at h
    refine h.congr fun r hr => ?_
    have := hr.ne'
    simp only [minSol2]; field_simp

/-- The solution around a point on a slope, three dimensions: for positive and negative second
derivative it starts at `l0` and solves the equation of motion for the force `dV + H (l - l0)`, and the
velocity returned is its derivative. -/
theorem C68_linear_3d (l0 dV H : ℝ) :
    (0 < H → Solves 2 (fun l => dV + H * (l - l0)) (linPos2 l0 dV H) (linPos2' dV H) ∧
      StartsAt (linPos2 l0 dV H) l0) ∧
    (H < 0 → Solves 2 (fun l => dV + H * (l - l0)) (linNeg2 l0 dV H) (linNeg2' dV H) ∧
      StartsAt (linNeg2 l0 dV H) l0) := by
  constructor
  · intro hH
    have hk : (0 : ℝ) < √H := Real.sqrt_pos.2 hH
    have hk2 : √H * √H = H := Real.mul_self_sqrt hH.le
    have e : ∀ r, 0 < r → (l0 - dV / H) + dV / (H * √H) * Real.sinh (√H * r) / r
        = linPos2 l0 dV H r := by
      intro r hr
      have := hr.ne'
      simp only [linPos2, abs_of_pos hH, rpow_three_half hH, one_mul]; field_simp
    constructor
    · have h := solves_over (l0 - dV / H) (dV / (H * √H)) H (fun r => Real.sinh (√H * r))
        (fun r => √H * Real.cosh (√H * r)) (hasDerivAt_sinh_mul _)
        (fun r => ((hasDerivAt_cosh_mul (√H) r).const_mul (√H)).congr_deriv (by
          rw [← mul_assoc, hk2]))
      refine h.congr (fun l => ?_) e (fun r hr => ?_)
      · field_simp; ring
      · have := hr.ne'
        simp only [linPos2', rpow_three_half hH]; field_simp
    · have h := startsAt_over (l0 - dV / H) (dV / (H * √H)) (fun r => Real.sinh (√H * r)) (√H)
        ((hasDerivAt_sinh_mul (√H) 0).congr_deriv (by simp)) (by simp)
      rw [show l0 - dV / H + dV / (H * √H) * √H = l0 by field_simp; ring] at h
      exact h.congr e
  · intro hH
    have hA : 0 < |H| := abs_pos.2 hH.ne
    have hk : (0 : ℝ) < √|H| := Real.sqrt_pos.2 hA
    have hk2 : √|H| * √|H| = -H := by rw [Real.mul_self_sqrt hA.le, abs_of_neg hH]
    have e : ∀ r, 0 < r → (l0 - dV / H) + -dV / (|H| * √|H|) * Real.sin (√|H| * r) / r
        = linNeg2 l0 dV H r := by
      intro r hr
      have := hr.ne'
      simp only [linNeg2, rpow_three_half hA]; field_simp
    constructor
    · have h := solves_over (l0 - dV / H) (-dV / (|H| * √|H|)) H (fun r => Real.sin (√|H| * r))
        (fun r => √|H| * Real.cos (√|H| * r)) (hasDerivAt_sin_mul _)
        (fun r => ((hasDerivAt_cos_mul (√|H|) r).const_mul (√|H|)).congr_deriv (by
          rw [mul_neg, ← mul_assoc, hk2]; ring))
      refine h.congr (fun l => ?_) e (fun r hr => ?_)
      · have := hH.ne; field_simp; ring
      · have := hr.ne'
        simp only [linNeg2', rpow_three_half hA]; field_simp; ring
    · have h := startsAt_over (l0 - dV / H) (-dV / (|H| * √|H|)) (fun r => Real.sin (√|H| * r)) (√|H|)
        ((hasDerivAt_sin_mul (√|H|) 0).congr_deriv (by simp)) (by simp)
      rw [show l0 - dV / H + -dV / (|H| * √|H|) * √|H| = l0 by
        have := hH.ne
        rw [show -dV / (|H| * √|H|) * √|H| = -dV / |H| by field_simp, abs_of_neg hH]
        field_simp; ring] at h
      exact h.congr e

/-! ## The search for the radius -/

section Search

variable {K : Type} [Field K] [LinearOrder K] [IsStrictOrderedRing K]

/-- What the binary search returns: a point next to a change of sign. -/
theorem bisect_spec (f : K → K) (n : Nat) (down up mid : K) (hlt : down ≤ up)
    (hm : mid = down ∨ mid = up) (hd : 0 ≤ f down) (hu : f up ≤ 0)
    (hn : up - down ≤ 2 ^ n / 10 ^ 10) :
    ∃ a b, down ≤ a ∧ a ≤ b ∧ b ≤ up ∧ b - a ≤ 1 / 10 ^ 10 ∧ 0 ≤ f a ∧ f b ≤ 0 ∧
      (bisect f n down up mid = a ∨ bisect f n down up mid = b) := by
  induction n generalizing down up mid with
  | zero =>
    refine ⟨down, up, le_rfl, hlt, le_rfl, by simpa using hn, hd, hu, ?_⟩
    simpa [bisect] using hm
  | succ n ih =>
    rw [bisect]
    by_cases hw : 1 / 10 ^ 10 < up - down
    · simp only [if_pos hw]
      have h1 : down ≤ (up + down) / 2 := by linarith
      have h2 : (up + down) / 2 ≤ up := by linarith
      have hn' : (up - down) / 2 ≤ 2 ^ n / 10 ^ 10 := by
        rw [pow_succ] at hn
        have : (2 : K) ^ n * 2 / 10 ^ 10 = 2 * (2 ^ n / 10 ^ 10) := by ring
        rw [this] at hn
        linarith
      by_cases hf : 0 < f ((up + down) / 2)
      · simp only [if_pos hf]
        obtain ⟨a, b, p, q, r, s, t, v, w⟩ := ih ((up + down) / 2) up ((up + down) / 2) h2
          (Or.inl rfl) hf.le hu (by linarith)
        exact ⟨a, b, h1.trans p, q, r, s, t, v, w⟩
      · simp only [if_neg hf]
        obtain ⟨a, b, p, q, r, s, t, v, w⟩ := ih down ((up + down) / 2) ((up + down) / 2) h1
          (Or.inr rfl) hd (not_lt.1 hf) (by linarith)
        exact ⟨a, b, p, q, r.trans h2, s, t, v, w⟩
    · simp only [if_neg hw]
      exact ⟨down, up, le_rfl, hlt, le_rfl, not_lt.1 hw, hd, hu, hm⟩

theorem growUp_spec (f : K → K) (n : Nat) (up : K) :
    ∃ k ≤ n, growUp f n up = up + k ∧ (∀ j < k, 0 < f (up + j)) ∧ (f (up + k) ≤ 0 ∨ k = n) := by
  induction n generalizing up with
  | zero => exact ⟨0, le_rfl, by simp [growUp], by simp, Or.inr rfl⟩
  | succ n ih =>
    rw [growUp]
    by_cases h : 0 < f up
    · rw [if_pos h]
      obtain ⟨k, hk, e, hj, hl⟩ := ih (up + 1)
      refine ⟨k + 1, by omega, by rw [e]; push_cast; ring, fun j hj' => ?_, ?_⟩
      · rcases j with _ | j
        · simpa using h
        · have := hj j (by omega)
          rwa [show up + 1 + (j : K) = up + ((j + 1 : Nat) : K) by push_cast; ring] at this
      · rcases hl with hl | hl
        · left
          rwa [show up + 1 + (k : K) = up + ((k + 1 : Nat) : K) by push_cast; ring] at hl
        · right; omega
    · rw [if_neg h]
      exact ⟨0, by omega, by simp, by simp, Or.inl (by simpa using not_lt.1 h)⟩

end Search

theorem search_core (f : ℝ → ℝ) (up : ℝ) (h1 : 1 / 10 ^ 9 ≤ up) (h2 : up ≤ 10 ^ 20)
    (hf : ContinuousOn f (Set.Ioi 0)) (h0 : 0 ≤ f (1 / 10 ^ 100)) (hup : f up ≤ 0) :
    ∃ r0, 0 < r0 ∧ r0 ≤ up ∧ f r0 = 0 ∧ |bisect f 150 (1 / 10 ^ 100) up 0 - r0| ≤ 1 / 10 ^ 10 ∧
      0 < bisect f 150 (1 / 10 ^ 100) up 0 := by
  have hd : (0 : ℝ) < 1 / 10 ^ 100 := by positivity
  have hd1 : (1 : ℝ) / 10 ^ 100 ≤ 1 / 10 ^ 11 := by norm_num
  -- the first pass always happens
  have hfirst : (1 : ℝ) / 10 ^ 10 < up - 1 / 10 ^ 100 := by
    have : (1 : ℝ) / 10 ^ 10 < 1 / 10 ^ 9 - 1 / 10 ^ 11 := by norm_num
    linarith
  have key : ∃ a b : ℝ, 1 / 10 ^ 100 ≤ a ∧ a ≤ b ∧ b ≤ up ∧ b - a ≤ 1 / 10 ^ 10 ∧ 0 ≤ f a ∧
      f b ≤ 0 ∧ (bisect f 150 (1 / 10 ^ 100) up 0 = a ∨
        bisect f 150 (1 / 10 ^ 100) up 0 = b) := by
    rw [show (150 : Nat) = 149 + 1 from rfl, bisect, if_pos hfirst]
    have hw : up / 2 ≤ 2 ^ 149 / 10 ^ 10 := by
      have : (10 : ℝ) ^ 20 / 2 ≤ 2 ^ 149 / 10 ^ 10 := by norm_num
      linarith
    by_cases hm : 0 < f ((up + 1 / 10 ^ 100) / 2)
    · simp only [if_pos hm]
      obtain ⟨a, b, p, q, r, s, t, v, w⟩ := bisect_spec f 149
        ((up + 1 / 10 ^ 100) / 2) up ((up + 1 / 10 ^ 100) / 2) (by linarith)
        (Or.inl rfl) hm.le hup (by linarith)
      exact ⟨a, b, by linarith, q, r, s, t, v, w⟩
    · simp only [if_neg hm]
      obtain ⟨a, b, p, q, r, s, t, v, w⟩ := bisect_spec f 149 (1 / 10 ^ 100)
        ((up + 1 / 10 ^ 100) / 2) ((up + 1 / 10 ^ 100) / 2) (by linarith)
        (Or.inr rfl) h0 (not_lt.1 hm) (by linarith)
      exact ⟨a, b, p, q, by linarith, s, t, v, w⟩
  obtain ⟨a, b, p, q, r, s, t, v, w⟩ := key
  have hsub : Set.Icc a b ⊆ Set.Ioi 0 := fun x hx => lt_of_lt_of_le hd (p.trans hx.1)
  obtain ⟨r0, hr0, hfr⟩ := intermediate_value_Icc' q (hf.mono hsub) (show (0 : ℝ) ∈ Set.Icc (f b) (f a)
    from ⟨v, t⟩)
  refine ⟨r0, hsub hr0, hr0.2.trans r, hfr, ?_, ?_⟩
  · rcases w with w | w <;> rw [w, abs_le] <;> constructor <;> linarith [hr0.1, hr0.2]
  · rcases w with w | w <;> rw [w] <;> linarith

/-- If the function changes its sign within the scanned radii, the search returns a radius that is
within 1e-10 of a zero. -/
theorem C68_search (f : ℝ → ℝ) (n : Nat) (hn : n ≤ 100) (hf : ContinuousOn f (Set.Ioi 0))
    (h0 : 0 ≤ f (1 / 10 ^ 100)) (hz : ∃ k ≤ n, f (1 + (k : ℝ)) ≤ 0) :
    ∃ r0, 0 < r0 ∧ f r0 = 0 ∧ |bisect f 150 (1 / 10 ^ 100) (growUp f n 1) 0 - r0| ≤ 1 / 10 ^ 10 ∧
      0 < bisect f 150 (1 / 10 ^ 100) (growUp f n 1) 0 := by
  obtain ⟨k, hk, e, hj, hl⟩ := growUp_spec f n 1
  have hup : f (1 + (k : ℝ)) ≤ 0 := by
    rcases hl with hl | rfl
    · exact hl
    · obtain ⟨i, hi, hfi⟩ := hz
      rcases Nat.lt_or_eq_of_le hi with h | rfl
      · exact absurd (hj i h) (not_lt.2 hfi)
      · exact hfi
  rw [e]
  have hk0 : (0 : ℝ) ≤ k := Nat.cast_nonneg k
  have hk100 : (k : ℝ) ≤ 100 := by
    have : k ≤ 100 := hk.trans hn
    exact_mod_cast this
  obtain ⟨r0, a, -, b, c, d⟩ := search_core f (1 + k)
    (by have : (1 : ℝ) / 10 ^ 9 ≤ 1 := by norm_num
        linarith)
    (by have : (101 : ℝ) ≤ 10 ^ 20 := by norm_num
        linarith) hf h0 hup
  exact ⟨r0, a, b, c, d⟩

/-- If the zero lies behind the scanned radii, the search ends next to the last of them, whatever the
function does there. -/
theorem C68_search_fails (n : Nat) (hn : n ≤ 100) : ∃ f : ℝ → ℝ, Continuous f ∧
    (∃! r0, f r0 = 0) ∧ 0 < f (1 / 10 ^ 100) ∧
    ∀ r0, f r0 = 0 → 50 ≤ |bisect f 150 (1 / 10 ^ 100) (growUp f n 1) 0 - r0| := by
  refine ⟨fun x => 200 - x, by fun_prop, ⟨200, by norm_num, fun y hy => by
    simp only at hy; linarith⟩, by norm_num, ?_⟩
  intro r0 h0
  obtain rfl : r0 = 200 := by simp only at h0; linarith
  obtain ⟨k, hk, e, -, -⟩ := growUp_spec (fun x : ℝ => 200 - x) n 1
  have hk100 : (k : ℝ) ≤ 100 := by
    have : k ≤ 100 := hk.trans hn
    exact_mod_cast this
  rw [e]
  have hb : ∀ (m : Nat) (down up mid : ℝ), down ≤ up → mid ≤ up →
      bisect (fun x : ℝ => 200 - x) m down up mid ≤ up := by
    intro m
    induction m with
    | zero => intro d u mm h1 h2; simpa [bisect] using h2
    | succ m ih =>
      intro d u mm h1 h2
      rw [bisect]
      by_cases c1 : 1 / 10 ^ 10 < u - d
      · simp only [if_pos c1]
        by_cases c2 : 0 < 200 - (u + d) / 2
        · simp only [if_pos c2]
          exact ih _ _ _ (by linarith) (by linarith)
        · simp only [if_neg c2]
          exact (ih d ((u + d) / 2) ((u + d) / 2) (by linarith) le_rfl).trans (by linarith)
      · simp only [if_neg c1]
        exact h2
  have := hb 150 (1 / 10 ^ 100) (1 + k) 0 (by
    have : (1 : ℝ) / 10 ^ 100 ≤ 1 := by norm_num
    have h0 : (0 : ℝ) ≤ k := Nat.cast_nonneg k
    linarith) (by positivity)
  rw [abs_sub_comm, le_abs]; left; linarith

theorem Solves.continuousOn {alpha : ℝ} {F u u' : ℝ → ℝ} (h : Solves alpha F u u') :
    ContinuousOn u (Set.Ioi 0) :=
  fun r hr => (h r hr).1.continuousAt.continuousWithinAt

/-- Three dimensions, around the minimum: if the exact solution reaches `l` within the scanned radii, the
start is a radius within 1e-10 of one where it does, the position `l` and the exact velocity there. -/
theorem C68_start_minimum (bes : Bessel) (lmin delta H l : ℝ) (hH : 0 < H)
    (h0 : minSol2 lmin delta H (1 / 10 ^ 100) ≤ l)
    (hz : ∃ k ≤ 99, l ≤ minSol2 lmin delta H (1 + ((k : Nat) : ℝ))) :
    ∃ r0 r, 0 < r0 ∧ minSol2 lmin delta H r0 = l ∧ |r - r0| ≤ 1 / 10 ^ 10 ∧ 0 < r ∧
      fromMinimum bes 2 lmin delta H l = (r, l, minSol2' delta H r) := by
  have hc := (C68_minimum_3d lmin delta H hH).1.continuousOn
  obtain ⟨r0, a, b, c, d⟩ := C68_search (fun r => l - minSol2 lmin delta H r) 99 (by norm_num)
    (continuousOn_const.sub hc) (by simpa using h0) (by
      obtain ⟨k, hk, e⟩ := hz
      exact ⟨k, hk, by simpa using e⟩)
  exact ⟨r0, _, a, (sub_eq_zero.1 b).symm, c, d, by simp [fromMinimum]⟩

/-- Three dimensions, on a slope with positive second derivative. -/
theorem C68_start_linear (bes : Bessel) (L l0 dV H l : ℝ) (n : Nat) (hH : 0 < H)
    (h0 : linPos2 l0 dV H (1 / 10 ^ 100) ≤ l)
    (hz : ∃ k ≤ 100, l ≤ linPos2 l0 dV H (1 + ((k : Nat) : ℝ))) :
    ∃ r0 r, 0 < r0 ∧ linPos2 l0 dV H r0 = l ∧ |r - r0| ≤ 1 / 10 ^ 10 ∧ 0 < r ∧
      exactLin bes 2 L l0 dV H (n + 1) l = some (some (r, l, linPos2' dV H r)) := by
  have hc := ((C68_linear_3d l0 dV H).1 hH).1.continuousOn
  obtain ⟨r0, a, b, c, d⟩ := C68_search (fun r => l - linPos2 l0 dV H r) 100 (by norm_num)
    (continuousOn_const.sub hc) (by simpa using h0) (by
      obtain ⟨k, hk, e⟩ := hz
      exact ⟨k, hk, by simpa using e⟩)
  refine ⟨r0, _, a, (sub_eq_zero.1 b).symm, c, d, ?_⟩
  rw [exactLin]
  have h1 : ¬ (l - linPos2 l0 dV H (1 / 10 ^ 100) < 0) := by linarith
  simp only [if_pos hH, if_true, true_or, true_and, if_pos hH.ne', if_neg h1, if_neg hH.not_gt, ne_eq,
    hH.ne', not_false_eq_true]

/-- Three dimensions, on a slope with negative second derivative: the solution oscillates, the first
turning point is the largest radius considered; if `l` is reached there, the start is exact as before. -/
theorem C68_start_linear_neg (bes : Bessel) (L l0 dV H l : ℝ) (n : Nat) (hH : H < 0)
    (hsmall : |H| ≤ 10 ^ 18) (hbig : 1 / 10 ^ 36 ≤ |H|)
    (h0 : linNeg2 l0 dV H (1 / 10 ^ 100) ≤ l)
    (hz : l ≤ linNeg2 l0 dV H (4.493409457909 / √|H|)) :
    ∃ r0 r, 0 < r0 ∧ r0 ≤ 4.493409457909 / √|H| ∧ linNeg2 l0 dV H r0 = l ∧ |r - r0| ≤ 1 / 10 ^ 10 ∧
      0 < r ∧ exactLin bes 2 L l0 dV H (n + 1) l = some (some (r, l, linNeg2' dV H r)) := by
  have hc := ((C68_linear_3d l0 dV H).2 hH).1.continuousOn
  have hA : 0 < |H| := abs_pos.2 hH.ne
  have hk : (0 : ℝ) < √|H| := Real.sqrt_pos.2 hA
  have hk1 : √|H| ≤ 10 ^ 9 := by
    rw [Real.sqrt_le_iff]; exact ⟨by positivity, by linarith [show ((10 : ℝ) ^ 9) ^ 2 = 10 ^ 18 by norm_num]⟩
  have hk2 : 1 / 10 ^ 18 ≤ √|H| := by
    apply Real.le_sqrt_of_sq_le
    rw [show ((1 : ℝ) / 10 ^ 18) ^ 2 = 1 / 10 ^ 36 by norm_num]; exact hbig
  obtain ⟨r0, a, a', b, c, d⟩ := search_core (fun r => l - linNeg2 l0 dV H r) (4.493409457909 / √|H|)
    (by rw [le_div_iff₀ hk]
        have : (1 : ℝ) / 10 ^ 9 * √|H| ≤ 1 / 10 ^ 9 * 10 ^ 9 := by
          apply mul_le_mul_of_nonneg_left hk1; positivity
        have h2 : (1 : ℝ) / 10 ^ 9 * 10 ^ 9 ≤ 4.493409457909 := by norm_num
        linarith)
    (by rw [div_le_iff₀ hk]
        have : (10 : ℝ) ^ 20 * (1 / 10 ^ 18) ≤ 10 ^ 20 * √|H| := by
          apply mul_le_mul_of_nonneg_left hk2; positivity
        have h2 : (4.493409457909 : ℝ) ≤ 10 ^ 20 * (1 / 10 ^ 18) := by norm_num
        linarith)
    (continuousOn_const.sub hc) (by simpa using h0) (by simpa using hz)
  refine ⟨r0, _, a, a', (sub_eq_zero.1 b).symm, c, d, ?_⟩
  rw [exactLin]
  have h1 : ¬ (l - linNeg2 l0 dV H (1 / 10 ^ 100) < 0) := by linarith
  have h2 : ¬ (0 < l - linNeg2 l0 dV H (4.493409457909 / √|H|)) := by linarith
  simp only [if_neg hH.not_gt, if_true, true_or, true_and, if_neg h1, if_pos hH, ne_eq,
    hH.ne, not_false_eq_true, if_neg h2]

theorem exactLin_cases (bes : Bessel) (alpha : Nat) (L l0 dV H l : ℝ) (fuel : Nat) :
    exactLin bes alpha L l0 dV H (fuel + 1) l = some (some (fallback l0 dV)) ∨
    (∃ rho v, exactLin bes alpha L l0 dV H (fuel + 1) l = some (some (rho, l, v))) ∨
    (|(l - l0) / L| < 1 / 10 ^ 10 ∧ exactLin bes alpha L l0 dV H (fuel + 1) l = some none) ∨
    (¬ |(l - l0) / L| < 1 / 10 ^ 10 ∧ exactLin bes alpha L l0 dV H (fuel + 1) l
      = exactLin bes alpha L l0 dV H fuel (l0 + (l - l0) / 10)) := by
  rw [exactLin]
  by_cases c : (alpha = 2 ∨ alpha = 3) ∧ H ≠ 0
  · rw [if_pos c]
    generalize (if 0 < H then (if alpha = 2 then linPos2 l0 dV H else linPos3 bes.I l0 dV H)
        else (if alpha = 2 then linNeg2 l0 dV H else linNeg3 bes.J l0 dV H)) = sol
    generalize (if 0 < H then (if alpha = 2 then linPos2' dV H else linPos3' bes.I dV H)
        else (if alpha = 2 then linNeg2' dV H else linNeg3' bes.J l l0 dV H)) = sol'
    generalize ((if alpha = 2 then 4.493409457909 else 5.13562230184068) : ℝ) / √|H| = up
    dsimp only
    by_cases c1 : l - sol (1 / 10 ^ 100) < 0
    · rw [if_pos c1]; exact Or.inl rfl
    · rw [if_neg c1]
      by_cases c2 : H < 0
      · rw [if_pos c2]
        by_cases c3 : 0 < l - sol up
        · rw [if_pos c3]
          by_cases c4 : |(l - l0) / L| < 1 / 10 ^ 10
          · rw [if_pos c4]; exact Or.inr (Or.inr (Or.inl ⟨c4, rfl⟩))
          · rw [if_neg c4]; exact Or.inr (Or.inr (Or.inr ⟨c4, rfl⟩))
        · rw [if_neg c3]; exact Or.inr (Or.inl ⟨_, _, rfl⟩)
      · rw [if_neg c2]; exact Or.inr (Or.inl ⟨_, _, rfl⟩)
  · rw [if_neg c]; exact Or.inl rfl

/-- If `l` is out of reach, the start is tried with a tenth of the distance, and so on; for a start at
most 1e-3 of the path away this ends after at most eight more attempts, with a start for the distance of
the last attempt, the fallback or the failure. -/
theorem C68_recursion_ends (bes : Bessel) (alpha : Nat) (L l0 dV H l : ℝ) (n : Nat) (hL : 0 < L)
    (hl : |l - l0| ≤ L / 10 ^ 3) :
    ∃ r, exactLin bes alpha L l0 dV H (9 + n) l = some r ∧
      (r = none ∨ r = some (fallback l0 dV) ∨
        ∃ k ≤ 8, ∃ rho v, r = some (rho, l0 + (l - l0) / 10 ^ k, v)) := by
  have main : ∀ (m : Nat) (l' : ℝ), |l' - l0| < L / 10 ^ 10 * 10 ^ m →
      ∃ r, exactLin bes alpha L l0 dV H (m + 1 + n) l' = some r ∧
      (r = none ∨ r = some (fallback l0 dV) ∨
        ∃ k ≤ m, ∃ rho v, r = some (rho, l0 + (l' - l0) / 10 ^ k, v)) := by
    intro m
    induction m with
    | zero =>
      intro l' hl'
      rw [show 0 + 1 + n = n + 1 by omega]
      rcases exactLin_cases bes alpha L l0 dV H l' n with e | ⟨rho, v, e⟩ | ⟨_, e⟩ | ⟨c, e⟩
      · exact ⟨_, e, Or.inr (Or.inl rfl)⟩
      · exact ⟨_, e, Or.inr (Or.inr ⟨0, le_rfl, rho, v, by simp⟩)⟩
      · exact ⟨_, e, Or.inl rfl⟩
      · exfalso
        apply c
        rw [abs_div, abs_of_pos hL, div_lt_iff₀ hL]
        have : L / 10 ^ 10 * 10 ^ 0 = 1 / 10 ^ 10 * L := by ring
        linarith
    | succ m ih =>
      intro l' hl'
      rw [show m + 1 + 1 + n = (m + 1 + n) + 1 by omega]
      rcases exactLin_cases bes alpha L l0 dV H l' (m + 1 + n) with e | ⟨rho, v, e⟩ | ⟨_, e⟩ | ⟨c, e⟩
      · exact ⟨_, e, Or.inr (Or.inl rfl)⟩
      · exact ⟨_, e, Or.inr (Or.inr ⟨0, by omega, rho, v, by simp⟩)⟩
      · exact ⟨_, e, Or.inl rfl⟩
      · obtain ⟨r, e', h⟩ := ih (l0 + (l' - l0) / 10) (by
          rw [add_sub_cancel_left, abs_div, abs_of_pos (by norm_num : (0 : ℝ) < 10),
            div_lt_iff₀ (by norm_num)]
          rw [pow_succ _ m, ← mul_assoc] at hl'
          linarith)
        refine ⟨r, by rw [e, e'], ?_⟩
        rcases h with h | h | ⟨k, hk, rho, v, h⟩
        · exact Or.inl h
        · exact Or.inr (Or.inl h)
        · refine Or.inr (Or.inr ⟨k + 1, by omega, rho, v, ?_⟩)
          rw [h, add_sub_cancel_left, div_div, pow_succ']
  have := main 8 l (lt_of_le_of_lt hl (by
    have : L / 10 ^ 10 * 10 ^ 8 = L / 100 := by ring
    rw [this]
    have : L / 10 ^ 3 = L / 100 / 10 := by ring
    have : 0 < L / 100 := by positivity
    linarith))
  rwa [show 8 + 1 + n = 9 + n by omega] at this

/-- Without second derivative the exact solution is `l0 + dV rho² / (2 (1 + alpha))`. The start the program
falls back to lies on it only if there is no force at all: the factor `1 / (1 + alpha)` is missing. -/
theorem C68_fallback_fails (bes : Bessel) (alpha : Nat) (ha : alpha = 2 ∨ alpha = 3) (L l0 l dV : ℝ)
    (hdV : dV ≠ 0) (n : Nat) :
    exactLin bes alpha L l0 dV 0 (n + 1) l = some (some (fallback l0 dV)) ∧
    (fallback l0 dV).2.1 ≠ l0 + dV * (fallback l0 dV).1 ^ 2 / (2 * (1 + alpha)) ∧
    (fallback l0 dV).2.2 ≠ dV * (fallback l0 dV).1 / (1 + alpha) := by
  refine ⟨by rw [exactLin]; simp, ?_, ?_⟩
  · intro h
    simp only [fallback] at h
    apply hdV
    rcases ha with rfl | rfl <;> · norm_num at h; linarith
  · intro h
    simp only [fallback] at h
    apply hdV
    rcases ha with rfl | rfl <;> · norm_num at h; linarith

/-! ## The mixture of both solutions -/

theorem logistic_sum (x : ℝ) : logistic (-x) + logistic x = 1 := by
  unfold logistic
  by_cases h1 : 10 ≤ x
  · have h2 : ¬ (10 ≤ -x) := by linarith
    have h3 : -x ≤ -10 := by linarith
    simp only [if_neg h2, if_pos h3, if_pos h1]; norm_num
  · by_cases h2 : x ≤ -10
    · have h3 : 10 ≤ -x := by linarith
      simp only [if_pos h3, if_neg h1, if_pos h2]; norm_num
    · have h3 : ¬ (10 ≤ -x) := by linarith
      have h4 : ¬ (-x ≤ -10) := by linarith
      simp only [if_neg h1, if_neg h2, if_neg h3, if_neg h4, neg_neg]
      have := Real.exp_pos x
      rw [Real.exp_neg]
      field_simp
      ring

theorem logistic_nonneg (x : ℝ) : 0 ≤ logistic x := by
  unfold logistic
  split_ifs
  · norm_num
  · exact le_rfl
  · have := Real.exp_pos (-x)
    positivity

theorem logistic_lt_one (x : ℝ) (h : x < 10) : logistic x < 1 := by
  unfold logistic
  rw [if_neg (not_le.2 h)]
  split_ifs
  · norm_num
  · have := Real.exp_pos (-x)
    rw [div_lt_one (by positivity)]
    linarith

/-- The weights are between zero and one, add up to one and increase. -/
theorem C68_logistic (x : ℝ) : 0 ≤ logistic x ∧ logistic x ≤ 1 ∧ logistic (-x) + logistic x = 1 ∧
    logistic 0 = 1 / 2 ∧ ∀ y, x ≤ y → logistic x ≤ logistic y := by
  have h1 := logistic_nonneg x
  have h2 := logistic_nonneg (-x)
  have h3 := logistic_sum x
  refine ⟨h1, by linarith, h3, by norm_num [logistic], fun y hy => ?_⟩
  have hy1 := logistic_nonneg y
  unfold logistic at *
  split_ifs at * with a b c d e f g
  all_goals try linarith
  all_goals first
    | (exfalso; linarith)
    | exact one_div_le_one_div_of_le (by have := Real.exp_pos (-y); positivity)
        (by have := Real.exp_le_exp.2 (neg_le_neg hy); linarith)

/-- Away from the threshold the start is one of the two solutions: the one around the minimum for
starting points near the minimum, the one on the slope for the others. Between, radius and velocity are
means of both with weights that add up to one, as long as the threshold, a distance from the
minimum, is larger than the position of the minimum. -/
theorem C68_mixture_partial (t dV delta L lmin : ℝ) (m s : ℝ × ℝ × ℝ) (hdV : 0 < dV) (ht : lmin < t) :
    (delta ≤ t - (t - lmin) / 10 → exactSolution (some t) dV delta L lmin m (some s) = some m) ∧
    (t + (t - lmin) / 10 ≤ delta → exactSolution (some t) dV delta L lmin m (some s) = some s) ∧
    (t - (t - lmin) / 10 < delta → delta < t + (t - lmin) / 10 → ∃ w, 0 ≤ w ∧ w ≤ 1 ∧
      exactSolution (some t) dV delta L lmin m (some s)
        = some (m.1 * (1 - w) + s.1 * w, s.2.1, m.2.2 * (1 - w) + s.2.2 * w)) := by
  have hp : 0 < t - lmin := by linarith
  have h0 : ¬ dV ≤ 0 := not_le.2 hdV
  refine ⟨fun h => ?_, fun h => ?_, fun ha hb => ?_⟩
  · have he : 100 * (delta - t) / (t - lmin) ≤ -10 := by
      rw [div_le_iff₀ hp]; linarith
    have : logistic (-(100 * (delta - t) / (t - lmin))) = 1 := by
      unfold logistic; rw [if_pos (by linarith)]
    simp only [exactSolution, if_neg h0, Option.bind_some, if_pos this]
  · have he : 10 ≤ 100 * (delta - t) / (t - lmin) := by
      rw [le_div_iff₀ hp]; linarith
    have h1 : logistic (100 * (delta - t) / (t - lmin)) = 1 := by
      unfold logistic; rw [if_pos he]
    have h2 : logistic (-(100 * (delta - t) / (t - lmin))) ≠ 1 := by
      have := logistic_sum (100 * (delta - t) / (t - lmin))
      rw [h1] at this
      intro h3; rw [h3] at this; norm_num at this
    simp only [exactSolution, if_neg h0, Option.bind_some, if_neg h2, if_pos h1]
  · have he1 : 100 * (delta - t) / (t - lmin) < 10 := by
      rw [div_lt_iff₀ hp]; linarith
    have he2 : -10 < 100 * (delta - t) / (t - lmin) := by
      rw [lt_div_iff₀ hp]; linarith
    have h1 := (logistic_lt_one _ he1).ne
    have h2 := (logistic_lt_one (-(100 * (delta - t) / (t - lmin))) (by linarith)).ne
    have hs := logistic_sum (100 * (delta - t) / (t - lmin))
    refine ⟨logistic (100 * (delta - t) / (t - lmin)), logistic_nonneg _, by
      have := logistic_nonneg (-(100 * (delta - t) / (t - lmin))); linarith, ?_⟩
    simp only [exactSolution, if_neg h0, Option.bind_some, if_neg h1, if_neg h2]
    rw [show logistic (-(100 * (delta - t) / (t - lmin)))
      = 1 - logistic (100 * (delta - t) / (t - lmin)) by linarith]

/-- When the position of the minimum is larger than the threshold, the choice is the wrong way round:
the denominator is the difference of a distance and a position. A starting point far from the minimum gets the
solution around the minimum, and one at the minimum the solution on the slope. -/
theorem C68_mixture_fails (t dV delta L lmin : ℝ) (m s : ℝ × ℝ × ℝ) (hdV : 0 < dV) (ht : t < lmin) :
    (t + (lmin - t) / 10 ≤ delta → exactSolution (some t) dV delta L lmin m (some s) = some m) ∧
    (delta ≤ t - (lmin - t) / 10 → exactSolution (some t) dV delta L lmin m (some s) = some s) := by
  have hp : t - lmin < 0 := by linarith
  have h0 : ¬ dV ≤ 0 := not_le.2 hdV
  refine ⟨fun h => ?_, fun h => ?_⟩
  · have he : 100 * (delta - t) / (t - lmin) ≤ -10 := by
      rw [div_le_iff_of_neg hp]; linarith
    have : logistic (-(100 * (delta - t) / (t - lmin))) = 1 := by
      unfold logistic; rw [if_pos (by linarith)]
    simp only [exactSolution, if_neg h0, Option.bind_some, if_pos this]
  · have he : 10 ≤ 100 * (delta - t) / (t - lmin) := by
      rw [le_div_iff_of_neg hp]; linarith
    have h1 : logistic (100 * (delta - t) / (t - lmin)) = 1 := by
      unfold logistic; rw [if_pos he]
    have h2 : logistic (-(100 * (delta - t) / (t - lmin))) ≠ 1 := by
      have := logistic_sum (100 * (delta - t) / (t - lmin))
      rw [h1] at this
      intro h3; rw [h3] at this; norm_num at this
    simp only [exactSolution, if_neg h0, Option.bind_some, if_neg h2, if_pos h1]

/-- Without a threshold the solution on the slope is taken; a gradient that is not positive is accepted
only near the minimum. -/
theorem C68_mixture_else (dV delta L lmin : ℝ) (m : ℝ × ℝ × ℝ) (s : Option (ℝ × ℝ × ℝ)) :
    exactSolution none dV delta L lmin m s = s ∧
    (∀ t, dV ≤ 0 → delta / L < 1 / 100 → exactSolution (some t) dV delta L lmin m s = some m) ∧
    (∀ t, dV ≤ 0 → 1 / 100 ≤ delta / L → exactSolution (some t) dV delta L lmin m s = none) ∧
    (∀ t, 0 < dV → s = none → exactSolution (some t) dV delta L lmin m s = none) := by
  refine ⟨rfl, fun t h1 h2 => ?_, fun t h1 h2 => ?_, fun t h1 h2 => ?_⟩
  · simp only [exactSolution, if_pos h1, if_pos h2]
  · simp only [exactSolution, if_pos h1, if_neg (not_lt.2 h2)]
  · subst h2; simp only [exactSolution, if_neg (not_le.2 h1), Option.bind_none]

/-- The assumptions of the theorems about the start hold e.g. for a force of 1 and second derivative 1. -/
example : linPos2 0 1 1 (1 / 10 ^ 100) ≤ 1 / 10 ∧
    ∃ k ≤ 100, (1 : ℝ) / 10 ≤ linPos2 0 1 1 (1 + ((k : Nat) : ℝ)) := by
  constructor
  · simp only [linPos2, abs_one, Real.one_rpow, Real.sqrt_one, one_mul]
    have h := Real.abs_exp_sub_one_sub_id_le (x := (1 : ℝ) / 10 ^ 100) (by norm_num)
    have h' := Real.abs_exp_sub_one_sub_id_le (x := -((1 : ℝ) / 10 ^ 100)) (by norm_num)
    rw [abs_le] at h h'
    have hp : (0 : ℝ) < 1 / 10 ^ 100 := by positivity
    have : Real.sinh (1 / 10 ^ 100) / (1 / 10 ^ 100) ≤ 1 + 1 / 10 := by
      rw [div_le_iff₀ hp, Real.sinh_eq]
      have h2 : ((1 : ℝ) / 10 ^ 100) ^ 2 ≤ 1 / 10 * (1 / 10 ^ 100) := by norm_num
      have h3 : (-((1 : ℝ) / 10 ^ 100)) ^ 2 = (1 / 10 ^ 100) ^ 2 := by ring
      rw [h3] at h'
      linarith [h.1, h.2, h'.1, h'.2]
    linarith
  · refine ⟨99, by norm_num, ?_⟩
    simp only [linPos2, abs_one, Real.one_rpow, Real.sqrt_one, one_mul]
    rw [show (1 : ℝ) + ((99 : Nat) : ℝ) = 100 by norm_num]
    have h := Real.quadratic_le_exp_of_nonneg (x := 100) (by norm_num)
    have h' : Real.exp (-100) ≤ 1 := Real.exp_le_one_iff.2 (by norm_num)
    have : (2 : ℝ) ≤ Real.sinh 100 / 100 := by
      rw [le_div_iff₀ (by norm_num), Real.sinh_eq]
      linarith
    linarith

example : ∃ k ≤ 99, (fun x : ℝ => 5 - x) (1 + (k : ℝ)) ≤ 0 := ⟨4, by norm_num, by norm_num⟩

end Verif.Action
