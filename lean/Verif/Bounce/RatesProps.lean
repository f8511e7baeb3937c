import Verif.Bounce.Rates
import Mathlib.Tactic.Linarith
import Mathlib.Tactic.FieldSimp
import Mathlib.Tactic.Positivity
import Mathlib.Algebra.BigOperators.Fin

/-!
# C55 and C57: tunnelling target, rates and time scale; the fraction behind C27
-/

namespace Verif.Bounce

open Verif Verif.Outcome

/-! ### C55 -/

/-- The squared distance of two points. -/
noncomputable def sqDist {n : Nat} (a b : Fin n → ℝ) : ℝ := ∑ i, (a i - b i) ^ 2

theorem symmetryLoop_keeps {n : Nat} (fv tv : Fin n → ℝ) : ∀ (gs : List (Mat n)) (best : Mat n),
    symmetryLoop fv tv gs (l2Norm (deltaVev fv tv)) best = best := by
  intro gs
  induction gs with
  | nil => intro best; rfl
  | cons g gs ih => intro best; rw [symmetryLoop, if_neg (lt_irrefl _)]; exact ih best

theorem symmetryLoop_far {n : Nat} (fv tv : Fin n → ℝ) (d : ℝ) (h : ¬ l2Norm (deltaVev fv tv) < d) :
    ∀ (gs : List (Mat n)) (best : Mat n), symmetryLoop fv tv gs d best = best := by
  intro gs
  induction gs with
  | nil => intro best; rfl
  | cons g gs ih => intro best; rw [symmetryLoop, if_neg h]; exact ih best

/-- **C55** (failure) The symmetry chosen for the tunnelling target is always the first one of the list:
the distances that are compared do not depend on the symmetry. -/
theorem C55_first_element {n : Nat} (fv tv : Fin n → ℝ) (g : Mat n) (gs : List (Mat n))
    (h : l2Norm (deltaVev fv tv) < 10 ^ 100) : optimalSymmetry fv tv (g :: gs) = g := by
  rw [optimalSymmetry, symmetryLoop, if_pos h, symmetryLoop_keeps]

theorem l2Norm_lt {n : Nat} (fv tv : Fin n → ℝ) (d : ℝ) (hd : 0 < d) : l2Norm (deltaVev fv tv) < d ↔
    ∑ i, (fv i) ^ 2 + ∑ i, (fv i - tv i) ^ 2 < d ^ 2 := by
  have key : ∀ (l : List ℝ) (a : ℝ), l.foldl (fun acc x => acc + x * x) a = a + (l.map fun x => x ^ 2).sum := by
    intro l
    induction l with
    | nil => intro a; simp
    | cons x l ih => intro a; rw [List.foldl_cons, ih, List.map_cons, List.sum_cons]; ring
  rw [l2Norm, Real.sqrt_lt' hd, key, deltaVev, List.map_append, List.sum_append, List.map_map, List.map_map,
    zero_add, ← List.ofFn_eq_map, ← List.ofFn_eq_map, List.sum_ofFn, List.sum_ofFn]
  rfl

/-- **C55** The symmetries are looked at exactly when the squares of the false vacuum and of the difference of the
vacua together stay below 1e200; otherwise nothing is done to the true vacuum. -/
theorem C55_considered {n : Nat} (fv tv : Fin n → ℝ) (g : Mat n) (gs : List (Mat n)) :
    (∑ i, (fv i) ^ 2 + ∑ i, (fv i - tv i) ^ 2 < (10 ^ 100) ^ 2 → optimalSymmetry fv tv (g :: gs) = g) ∧
    ((10 ^ 100) ^ 2 ≤ ∑ i, (fv i) ^ 2 + ∑ i, (fv i - tv i) ^ 2 → optimalSymmetry fv tv (g :: gs) = identity n) := by
  have := l2Norm_lt fv tv (10 ^ 100) (by positivity)
  constructor
  · intro h
    exact C55_first_element fv tv g gs (this.2 h)
  · intro h
    rw [optimalSymmetry, symmetryLoop_far fv tv _ (fun h' => absurd (this.1 h') (not_lt.2 h))]

/-- **C55** (partial: says nothing about distances) The target is the copy of the true vacuum under one of
the symmetries or the true vacuum itself. -/
theorem C55_target_partial {n : Nat} (fv tv : Fin n → ℝ) (gs : List (Mat n)) :
    optimalSymmetry fv tv gs ∈ identity n :: gs := by
  cases gs with
  | nil => simp [optimalSymmetry, symmetryLoop]
  | cons g gs =>
    by_cases h : l2Norm (deltaVev fv tv) < 10 ^ 100
    · rw [C55_first_element fv tv g gs h]; simp
    · rw [optimalSymmetry, symmetryLoop_far fv tv _ h]; simp

/-- One field; the false vacuum at 100, the true vacuum at -200, symmetric under a change of sign. -/
theorem C55_not_nearest : ∃ (fv tv : Fin 1 → ℝ) (gs : List (Mat 1)), identity 1 ∈ gs ∧
    ∃ g ∈ gs, sqDist fv (applyMat g tv) < sqDist fv (applyMat (optimalSymmetry fv tv gs) tv) := by
  refine ⟨fun _ => 100, fun _ => -200, [identity 1, fun _ _ => -1], by simp, fun _ _ => -1, by simp, ?_⟩
  rw [C55_first_element]
  · norm_num [sqDist, applyMat, identity, List.finRange_succ]
  · rw [l2Norm, Real.sqrt_lt' (by positivity)]
    norm_num [deltaVev, List.finRange_succ]

/-- Applying a matrix is the usual matrix-vector product. -/
theorem applyMat_eq {n : Nat} (m : Mat n) (v : Fin n → ℝ) (i : Fin n) :
    applyMat m v i = ∑ j, m i j * v j := by
  have key : ∀ (l : List (Fin n)) (a : ℝ),
      l.foldl (fun acc j => acc + m i j * v j) a = a + (l.map fun j => m i j * v j).sum := by
    intro l
    induction l with
    | nil => intro a; simp
    | cons j l ih => intro a; rw [List.foldl_cons, ih]; simp [add_assoc]
  rw [applyMat, key, zero_add]
  rw [← List.sum_ofFn, List.ofFn_eq_map]

/-- **C55** Under the identity – all that is used without symmetries – the target is the true vacuum. -/
theorem C55_identity {n : Nat} (fv tv : Fin n → ℝ) : applyMat (optimalSymmetry fv tv []) tv = tv := by
  funext i
  rw [applyMat_eq]
  simp [optimalSymmetry, symmetryLoop, identity]

/-! ### C57 -/

/-- `x ↦ x^(3/2) * exp (-x)` decreases from 3/2 on. -/
theorem shape_anti {x y : ℝ} (hx : 3 / 2 ≤ x) (hxy : x ≤ y) :
    y ^ (3 / 2 : ℝ) * Real.exp (-y) ≤ x ^ (3 / 2 : ℝ) * Real.exp (-x) := by
  have hx0 : 0 < x := by linarith
  have hy0 : 0 < y := by linarith
  rw [Real.rpow_def_of_pos hx0, Real.rpow_def_of_pos hy0, ← Real.exp_add, ← Real.exp_add,
    Real.exp_le_exp]
  have h1 : Real.log y - Real.log x ≤ (y - x) / x := by
    rw [← Real.log_div (ne_of_gt hy0) (ne_of_gt hx0)]
    have := Real.log_le_sub_one_of_pos (div_pos hy0 hx0)
    have e : y / x - 1 = (y - x) / x := by field_simp
    linarith
  have h2 : (y - x) / x ≤ (y - x) / (3 / 2) :=
    div_le_div_of_nonneg_left (by linarith) (by norm_num) hx
  linarith

/-- The tunnelling rate in terms of the action over temperature. -/
theorem rate_shape (t s : ℝ) (ht : 0 < t) (hs : 0 ≤ s) :
    t ^ 4 * (s / (2 * Real.pi * t)) ^ (3 / 2 : ℝ) * Real.exp (-s / t) =
      t ^ 4 * (1 / (2 * Real.pi)) ^ (3 / 2 : ℝ) * ((s / t) ^ (3 / 2 : ℝ) * Real.exp (-(s / t))) := by
  have hpi := Real.pi_pos
  rw [show s / (2 * Real.pi * t) = 1 / (2 * Real.pi) * (s / t) by field_simp,
    Real.mul_rpow (by positivity) (by positivity), neg_div]
  ring

/-- **C57** The rate needs a non-empty list of solutions; it is never negative and vanishes outside
their temperatures; inside it is given by the semi-classical formula. -/
theorem C57_rate (temps : List ℝ) (action : ℝ → ℝ) (t : ℝ) :
    (temps = [] → tunnelingRate temps action t = ub .emptyContainer) ∧
    (∀ lo hi, temps.head? = some lo → temps.getLast? = some hi → 0 < lo →
      ∃ r, tunnelingRate temps action t = ok r ∧ 0 ≤ r ∧
        ((t < lo ∨ hi < t) → r = 0) ∧
        (lo ≤ t → t ≤ hi → 0 ≤ action t →
          r = t ^ 4 * (action t / (2 * Real.pi * t)) ^ (3 / 2 : ℝ) * Real.exp (-action t / t)) ∧
        (lo ≤ t → t ≤ hi → 0 < action t → 0 < r)) := by
  have hpi := Real.pi_pos
  constructor
  · rintro rfl; rfl
  · intro lo hi h1 h2 hlo
    rw [tunnelingRate, h1, h2]
    dsimp only
    by_cases ho : t < lo ∨ t > hi
    · rw [if_pos ho]
      refine ⟨0, rfl, le_refl _, fun _ => rfl, ?_, ?_⟩
      · intro a b; rcases ho with h | h <;> exact absurd h (by linarith)
      · intro a b; rcases ho with h | h <;> exact absurd h (by linarith)
    · rw [if_neg ho]
      have hlt : lo ≤ t := not_lt.1 fun h => ho (Or.inl h)
      have ht : 0 < t := by linarith
      by_cases ha : action t < 0
      · rw [if_pos ha]
        refine ⟨_, rfl, by positivity, fun h => absurd h ho, ?_, ?_⟩
        · intro _ _ h; linarith
        · intro _ _ h; linarith
      · rw [if_neg ha]
        have ha' : 0 ≤ action t := not_lt.1 ha
        refine ⟨_, rfl, by positivity, fun h => absurd h ho, fun _ _ _ => rfl, ?_⟩
        intro _ _ h
        positivity

/-- **C57** At a fixed temperature a larger action gives a smaller rate, once the action is at least
three halves of the temperature. -/
theorem C57_larger_action (temps : List ℝ) (a b : ℝ → ℝ) (t lo hi ra rb : ℝ)
    (h1 : temps.head? = some lo) (h2 : temps.getLast? = some hi) (hlo : 0 < lo) (hl : lo ≤ t) (hh : t ≤ hi)
    (hab : a t ≤ b t) (ha : 3 / 2 * t ≤ a t) (hra : tunnelingRate temps a t = ok ra)
    (hrb : tunnelingRate temps b t = ok rb) : rb ≤ ra := by
  have ht : 0 < t := by linarith
  have hpi := Real.pi_pos
  have ha0 : 0 ≤ a t := by linarith
  obtain ⟨r, e, -, -, f, -⟩ := (C57_rate temps a t).2 lo hi h1 h2 hlo
  obtain ⟨r', e', -, -, f', -⟩ := (C57_rate temps b t).2 lo hi h1 h2 hlo
  rw [hra] at e; cases e
  rw [hrb] at e'; cases e'
  rw [f hl hh ha0, f' hl hh (by linarith), rate_shape t _ ht ha0, rate_shape t _ ht (by linarith)]
  have := shape_anti (x := a t / t) (y := b t / t) (by rw [le_div_iff₀ ht]; exact ha)
    (div_le_div_of_nonneg_right hab ht.le)
  have hc : 0 ≤ t ^ 4 * (1 / (2 * Real.pi)) ^ (3 / 2 : ℝ) := by positivity
  exact mul_le_mul_of_nonneg_left this hc

theorem shape_le_one {x : ℝ} (hx : 0 ≤ x) :
    (1 / (2 * Real.pi)) ^ (3 / 2 : ℝ) * (x ^ (3 / 2 : ℝ) * Real.exp (-x)) ≤ 1 := by
  have hpi := Real.pi_gt_three
  have h1 : (1 / (2 * Real.pi)) ^ (3 / 2 : ℝ) ≤ 1 :=
    Real.rpow_le_one (by positivity) (by rw [div_le_one (by positivity)]; linarith) (by norm_num)
  have h2 : x ^ (3 / 2 : ℝ) * Real.exp (-x) ≤ 1 := by
    rcases eq_or_lt_of_le hx with rfl | hx
    · rw [Real.zero_rpow (by norm_num)]; norm_num
    · rw [Real.rpow_def_of_pos hx, ← Real.exp_add, Real.exp_le_one_iff]
      have h3 : Real.log x = 2 * Real.log (Real.sqrt x) := by
        rw [Real.log_sqrt hx.le]; ring
      have h4 := Real.log_le_sub_one_of_pos (Real.sqrt_pos.2 hx)
      have h5 := Real.sq_sqrt hx.le
      nlinarith [sq_nonneg (Real.sqrt x - 3 / 2)]
  have h3 : 0 ≤ x ^ (3 / 2 : ℝ) * Real.exp (-x) := by positivity
  calc _ ≤ 1 * 1 := mul_le_mul h1 h2 h3 (by norm_num)
    _ = 1 := one_mul 1

/-- **C57** (failure) Where the spline of the action becomes negative the rate is 1e100, which the code
says "kills the tunneling rate"; it is larger than any rate obtained from a non-negative action, for all
temperatures below 1e20. -/
theorem C57_negative_action (temps : List ℝ) (a b : ℝ → ℝ) (t lo hi ra rb : ℝ)
    (h1 : temps.head? = some lo) (h2 : temps.getLast? = some hi) (hlo : 0 < lo) (hl : lo ≤ t) (hh : t ≤ hi)
    (ht20 : t ≤ 10 ^ 20) (ha : 0 ≤ a t) (hb : b t < 0) (hra : tunnelingRate temps a t = ok ra)
    (hrb : tunnelingRate temps b t = ok rb) : rb = 10 ^ 100 ∧ ra < rb := by
  have ht : 0 < t := by linarith
  obtain ⟨r, e, -, -, f, -⟩ := (C57_rate temps a t).2 lo hi h1 h2 hlo
  rw [hra] at e; cases e
  have hrb' : rb = 10 ^ 100 := by
    rw [tunnelingRate, h1, h2] at hrb
    dsimp only at hrb
    rw [if_neg (by rintro (h | h) <;> linarith), if_pos hb] at hrb
    cases hrb; rfl
  refine ⟨hrb', ?_⟩
  rw [f hl hh ha, rate_shape t _ ht ha, hrb', mul_assoc]
  have h3 := shape_le_one (x := a t / t) (by positivity)
  have h4 : t ^ 4 ≤ (10 ^ 20) ^ 4 := pow_le_pow_left₀ ht.le ht20 4
  calc t ^ 4 * _ ≤ t ^ 4 * 1 := mul_le_mul_of_nonneg_left h3 (by positivity)
    _ ≤ (10 ^ 20) ^ 4 := by rw [mul_one]; exact h4
    _ < 10 ^ 100 := by norm_num

/-- **C57** The Hubble rate is positive and grows with the square of the temperature. -/
theorem C57_hubble (nHiggs : Nat) (mpl t : ℝ) (hm : 0 < mpl) (ht : 0 < t) :
    0 < hubbleRate (gstarPureRad nHiggs) mpl t ∧
    ∀ c : ℝ, hubbleRate (gstarPureRad nHiggs) mpl (c * t) =
      c ^ 2 * hubbleRate (gstarPureRad nHiggs) mpl t := by
  have hpi := Real.pi_pos
  have hg : 0 < gstarPureRad nHiggs := by unfold gstarPureRad; positivity
  have hs := Real.sqrt_pos.2 hg
  constructor
  · unfold hubbleRate; positivity
  · intro c; unfold hubbleRate; ring

/-- **C57** Friedmann's equation: the square of the Hubble rate is the energy density of the radiation over three
times the square of the reduced Planck mass. -/
theorem C57_friedmann (g mpl t : ℝ) (hg : 0 ≤ g) :
    hubbleRate g mpl t ^ 2 = (Real.pi ^ 2 / 30 * g * t ^ 4) / (3 * mpl ^ 2) := by
  have h1 := Real.sq_sqrt hg
  have h2 : Real.sqrt 90 ^ 2 = 90 := Real.sq_sqrt (by norm_num)
  unfold hubbleRate
  rw [div_pow, mul_pow, div_pow, mul_pow, h1, h2]
  ring

/-- The degrees of freedom of the Standard Model with its four scalar fields: 109.75 (the three
longitudinal modes of the massive bosons and the Goldstone fields are both counted). -/
example : gstarPureRad 4 = 109.75 := by norm_num [gstarPureRad]

/-- **C27** The exponent the search compares with its goal passes the goal exactly where the
false-vacuum fraction passes the requested fraction. -/
theorem C27_goal (vwall integral frac : ℝ) (hf : 0 < frac) :
    (4 * Real.pi / 3 * vwall ^ 3 * integral = exponentGoal frac ↔
      falseVacFraction vwall integral = frac) ∧
    (4 * Real.pi / 3 * vwall ^ 3 * integral < exponentGoal frac ↔
      frac < falseVacFraction vwall integral) := by
  unfold exponentGoal falseVacFraction
  have e : Real.exp (-(4 * Real.pi / 3 * vwall ^ 3) * integral) =
      Real.exp (-(4 * Real.pi / 3 * vwall ^ 3 * integral)) := by ring_nf
  rw [e]
  generalize 4 * Real.pi / 3 * vwall ^ 3 * integral = x
  constructor
  · constructor
    · rintro rfl; rw [neg_neg, Real.exp_log hf]
    · intro h; rw [← h, Real.log_exp, neg_neg]
  · rw [← Real.log_lt_iff_lt_exp hf]
    constructor <;> intro h <;> linarith

/-- **C57** The inverse time scale needs a percolation temperature, and is then the percolation
temperature times the derivative of the action over temperature there – on the first call. -/
theorem C57_time_scale {K : Type} [Field K] [DecidableEq K] (deriv : K → K) (s : ScaleState K)
    (h : s.betaH = -1) :
    (s.set = false → getInvTimeScale deriv s = err .runtime) ∧
    (s.set = true → ∃ s', getInvTimeScale deriv s = ok (s.tperc * deriv s.tperc, s') ∧
      s'.betaH = s.tperc * deriv s.tperc ∧ s'.tperc = s.tperc) := by
  constructor
  · intro hs
    simp [getInvTimeScale, calcInvTimeScale, h, hs]
  · intro hs
    exact ⟨{ s with betaH := s.tperc * deriv s.tperc }, by
      simp [getInvTimeScale, calcInvTimeScale, h, hs], rfl, rfl⟩

/-- **C57** (failure) The value is kept: after the percolation temperature or the actions have changed,
the old inverse time scale is still returned. -/
theorem C57_time_scale_stale {K : Type} [Field K] [DecidableEq K] (deriv deriv' : K → K)
    (s : ScaleState K) (tperc : K) (b : K) (s' : ScaleState K)
    (h : getInvTimeScale deriv s = ok (b, s')) (hb : b ≠ -1) :
    ∃ s'', getInvTimeScale deriv' { s' with tperc := tperc } = ok (b, s'') := by
  have : s'.betaH = b := by
    unfold getInvTimeScale at h
    split at h
    · unfold calcInvTimeScale at h
      split at h
      · simp at h
      · simp only [bind_ok] at h; injection h with h; injection h with h1 h2; rw [← h2]; exact h1
    · simp only [bind_ok] at h; injection h with h; injection h with h1 h2; rw [← h2]; exact h1
  refine ⟨{ s' with tperc := tperc }, ?_⟩
  simp [getInvTimeScale, this, hb]

example : getInvTimeScale (fun t : ℚ => 2 * t) ⟨-1, 100, true⟩ = ok (20000, ⟨20000, 100, true⟩) := by
  norm_num [getInvTimeScale, calcInvTimeScale]

end Verif.Bounce
