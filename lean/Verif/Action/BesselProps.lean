import Mathlib.Algebra.BigOperators.Field
import Verif.Action.ExactProps

/-!
# C68: the Bessel functions and the start in four dimensions
-/

set_option linter.unusedSectionVars false
set_option linter.unusedSimpArgs false

namespace Verif.Action

open scoped BigOperators

/-- The beginning of the series of the modified Bessel function. -/
noncomputable def bI (N nu : Nat) (x : ℝ) : ℝ :=
  ∑ m ∈ Finset.range N, (x / 2) ^ (2 * m + nu) / (((m + nu).factorial : ℝ) * (m.factorial : ℝ))

/-- The beginning of the series of the Bessel function of order one. -/
noncomputable def bJ (N : Nat) (x : ℝ) : ℝ :=
  ∑ m ∈ Finset.range N, (-1) ^ m * (x / 2) ^ (2 * m + 1) /
    (((m + 1).factorial : ℝ) * (m.factorial : ℝ))

theorem besselLoop_spec (alpha : Nat) (x : ℝ) (fuel m : Nat) (r0 : ℝ) :
    ∃ N, m ≤ N ∧ N ≤ m + fuel ∧ besselLoop alpha x fuel m (bI m alpha x) r0 = bI N alpha x ∧
      (N = m + fuel ∨ (N = m ∧ ¬ besselGoOn (bI m alpha x) r0) ∨
        (m < N ∧ ¬ besselGoOn (bI N alpha x) (bI (N - 1) alpha x))) ∧
      (besselGoOn (bI m alpha x) r0 → 0 < fuel → m < N) := by
  induction fuel generalizing m r0 with
  | zero => exact ⟨m, le_rfl, le_rfl, rfl, Or.inl rfl, fun _ h => absurd h (by omega)⟩
  | succ fuel ih =>
    rw [besselLoop]
    by_cases h : besselGoOn (bI m alpha x) r0
    · rw [if_pos h]
      have e : bI m alpha x + 1 / (((m + alpha).factorial : ℝ) * (m.factorial : ℝ))
          * (x / 2) ^ (2 * m + alpha) = bI (m + 1) alpha x := by
        rw [bI, bI, Finset.sum_range_succ]; ring
      rw [e]
      obtain ⟨N, h1, h2, h3, h4, h5⟩ := ih (m + 1) (bI m alpha x)
      refine ⟨N, by omega, by omega, h3, ?_, fun _ _ => by omega⟩
      rcases h4 with h4 | ⟨h4, h4'⟩ | ⟨h4, h4'⟩
      · left; omega
      · right; right
        subst h4
        exact ⟨by omega, h4'⟩
      · right; right; exact ⟨by omega, h4'⟩
    · rw [if_neg h]
      exact ⟨m, le_rfl, by omega, rfl, Or.inr (Or.inl ⟨rfl, h⟩), fun h' => absurd h' h⟩

theorem besselJLoop_spec (x : ℝ) (fuel m : Nat) (r0 : ℝ) :
    ∃ N, m ≤ N ∧ N ≤ m + fuel ∧ besselJLoop x fuel m (bJ m x) r0 = bJ N x ∧
      (N = m + fuel ∨ (N = m ∧ ¬ besselGoOn (bJ m x) r0) ∨
        (m < N ∧ ¬ besselGoOn (bJ N x) (bJ (N - 1) x))) ∧
      (besselGoOn (bJ m x) r0 → 0 < fuel → m < N) := by
  induction fuel generalizing m r0 with
  | zero => exact ⟨m, le_rfl, le_rfl, rfl, Or.inl rfl, fun _ h => absurd h (by omega)⟩
  | succ fuel ih =>
    rw [besselJLoop]
    by_cases h : besselGoOn (bJ m x) r0
    · rw [if_pos h]
      have e : bJ m x + 1 / (((m + 1).factorial : ℝ) * (m.factorial : ℝ)) * (-1) ^ m
          * (x / 2) ^ (2 * m + 1) = bJ (m + 1) x := by
        rw [bJ, bJ, Finset.sum_range_succ]; ring
      rw [e]
      obtain ⟨N, h1, h2, h3, h4, h5⟩ := ih (m + 1) (bJ m x)
      refine ⟨N, by omega, by omega, h3, ?_, fun _ _ => by omega⟩
      rcases h4 with h4 | ⟨h4, h4'⟩ | ⟨h4, h4'⟩
      · left; omega
      · right; right
        subst h4
        exact ⟨by omega, h4'⟩
      · right; right; exact ⟨by omega, h4'⟩
    · rw [if_neg h]
      exact ⟨m, le_rfl, by omega, rfl, Or.inr (Or.inl ⟨rfl, h⟩), fun h' => absurd h' h⟩

/-- The Bessel functions of the program are beginnings of their series with at least one term: with all
terms allowed, or until the last term is at most 1e-15 of the sum. -/
theorem C68_bessel (terms nu : Nat) (ht : 0 < terms) (x : ℝ) :
    (∃ N, 1 ≤ N ∧ N ≤ terms ∧ besselI terms nu x = bI N nu x ∧
      (N = terms ∨ |bI N nu x - bI (N - 1) nu x| ≤ 1e-15 * |bI N nu x|)) ∧
    (∃ N, 1 ≤ N ∧ N ≤ terms ∧ besselJ terms x = bJ N x ∧
      (N = terms ∨ |bJ N x - bJ (N - 1) x| ≤ 1e-15 * |bJ N x|)) := by
  have hgo : ∀ r r0 : ℝ, ¬ besselGoOn r r0 → |r - r0| ≤ 1e-15 * |r| := by
    intro r r0 h
    unfold besselGoOn at h
    by_cases hr : r = 0
    · rw [if_pos hr, not_not] at h
      rw [hr, h]; simp
    · rw [if_neg hr, not_lt, abs_div, div_le_iff₀ (abs_pos.2 hr)] at h
      exact h
  have h0 : besselGoOn 0 1e100 := by unfold besselGoOn; rw [if_pos rfl]; norm_num
  constructor
  · obtain ⟨N, h1, h2, h3, h4, h5⟩ := besselLoop_spec nu x terms 0 1e100
    have e : bI 0 nu x = 0 := by simp [bI]
    rw [e] at h3 h4 h5
    have hN := h5 h0 ht
    refine ⟨N, hN, by omega, h3, ?_⟩
    rcases h4 with h4 | ⟨h4, _⟩ | ⟨_, h4⟩
    · left; omega
    · omega
    · right; exact hgo _ _ h4
  · obtain ⟨N, h1, h2, h3, h4, h5⟩ := besselJLoop_spec x terms 0 1e100
    have e : bJ 0 x = 0 := by simp [bJ]
    rw [e] at h3 h4 h5
    have hN := h5 h0 ht
    refine ⟨N, hN, by omega, h3, ?_⟩
    rcases h4 with h4 | ⟨h4, _⟩ | ⟨_, h4⟩
    · left; omega
    · omega
    · right; exact hgo _ _ h4

/-! ## Four dimensions -/

/-- The terms of the solution, a series in `H rho²`. -/
noncomputable def ser (H : ℝ) (m : Nat) (r : ℝ) : ℝ :=
  (H * r ^ 2 / 4) ^ m / (((m + 1).factorial : ℝ) * (m.factorial : ℝ))

/-- Their derivatives. -/
noncomputable def ser' (H : ℝ) (m : Nat) (r : ℝ) : ℝ :=
  m * (H * r ^ 2 / 4) ^ (m - 1) * (H * r / 2) / (((m + 1).factorial : ℝ) * (m.factorial : ℝ))

theorem hasDerivAt_ser (H : ℝ) (m : Nat) (r : ℝ) : HasDerivAt (ser H m) (ser' H m r) r := by
  have h1 : HasDerivAt (fun r : ℝ => H * r ^ 2 / 4) (H * r / 2) r := by
    refine ((((hasDerivAt_id' r).fun_pow 2).const_mul H).div_const 4).congr_deriv ?_
    push_cast; ring
  exact ((h1.fun_pow m).div_const _).congr_deriv (by rw [ser'])

theorem ser_ode (H : ℝ) (m : Nat) (r : ℝ) (hr : r ≠ 0) :
    HasDerivAt (ser' H (m + 1)) (H * ser H m r - 3 / r * ser' H (m + 1) r) r := by
  have h1 : HasDerivAt (fun r : ℝ => H * r ^ 2 / 4) (H * r / 2) r := by
    refine ((((hasDerivAt_id' r).fun_pow 2).const_mul H).div_const 4).congr_deriv ?_
    push_cast; ring
  have h2 : HasDerivAt (fun r : ℝ => H * r / 2) (H / 2) r := by
    refine (((hasDerivAt_id' r).const_mul H).div_const 2).congr_deriv ?_
    ring
  have h3 := (((h1.fun_pow m).const_mul ((m + 1 : Nat) : ℝ)).fun_mul h2).div_const
    (((m + 1 + 1).factorial : ℝ) * ((m + 1).factorial : ℝ))
  refine h3.congr_deriv ?_
  simp only [ser, ser', Nat.add_sub_cancel]
  rw [Nat.factorial_succ (m + 1), Nat.factorial_succ m]
  have f1 : (m.factorial : ℝ) ≠ 0 := by exact_mod_cast m.factorial_ne_zero
  have f2 : ((m : ℝ) + 1) ≠ 0 := by positivity
  have f3 : ((m : ℝ) + 1 + 1) ≠ 0 := by positivity
  rcases m with _ | k
  · simp only [pow_zero, Nat.factorial_zero]
    push_cast
    field_simp
    ring
  · simp only [Nat.add_sub_cancel, pow_succ (H * r ^ 2 / 4) k]
    generalize (H * r ^ 2 / 4) ^ k = P at *
    push_cast at *
    field_simp
    ring

theorem ser'_zero (H r : ℝ) : ser' H 0 r = 0 := by simp [ser']

/-- The sum of the first terms solves the equation up to the last one. -/
theorem sum_ode (H : ℝ) (N : Nat) (r : ℝ) (hr : r ≠ 0) :
    HasDerivAt (fun r => ∑ m ∈ Finset.range N, ser H m r) (∑ m ∈ Finset.range N, ser' H m r) r ∧
    HasDerivAt (fun r => ∑ m ∈ Finset.range N, ser' H m r)
      (H * ∑ m ∈ Finset.range (N - 1), ser H m r - 3 / r * ∑ m ∈ Finset.range N, ser' H m r) r := by
  refine ⟨HasDerivAt.fun_sum fun m _ => hasDerivAt_ser H m r, ?_⟩
  induction N with
  | zero => simpa using hasDerivAt_const r (0 : ℝ)
  | succ N ih =>
    simp only [Finset.sum_range_succ, Nat.add_sub_cancel]
    rcases N with _ | N
    · have e : (fun r => (∑ m ∈ Finset.range 0, ser' H m r) + ser' H 0 r) = fun _ => 0 := by
        funext r; simp [ser'_zero]
      rw [e]
      simpa [ser'_zero] using hasDerivAt_const r (0 : ℝ)
    · refine (ih.fun_add (ser_ode H N r hr)).congr_deriv ?_
      simp only [Nat.add_sub_cancel, Finset.sum_range_succ]
      ring

theorem bI_one (N : Nat) (H r : ℝ) (hH : 0 < H) (hr : 0 < r) :
    bI N 1 (√H * r) = √H * r / 2 * ∑ m ∈ Finset.range N, ser H m r := by
  rw [bI, Finset.mul_sum]
  refine Finset.sum_congr rfl fun m _ => ?_
  have : (√H * r / 2) ^ (2 * m + 1) = √H * r / 2 * (H * r ^ 2 / 4) ^ m := by
    rw [pow_succ, pow_mul, show (√H * r / 2) ^ 2 = H * r ^ 2 / 4 by
      rw [div_pow, mul_pow, Real.sq_sqrt hH.le]; norm_num]
    ring
  rw [this, ser]; ring

theorem bJ_one (N : Nat) (H r : ℝ) (hH : H < 0) (hr : 0 < r) :
    bJ N (√|H| * r) = √|H| * r / 2 * ∑ m ∈ Finset.range N, ser H m r := by
  rw [bJ, Finset.mul_sum]
  refine Finset.sum_congr rfl fun m _ => ?_
  have : (-1 : ℝ) ^ m * (√|H| * r / 2) ^ (2 * m + 1) = √|H| * r / 2 * (H * r ^ 2 / 4) ^ m := by
    rw [pow_succ, pow_mul, show (√|H| * r / 2) ^ 2 = -(H * r ^ 2 / 4) by
      rw [div_pow, mul_pow, Real.sq_sqrt (abs_nonneg H), abs_of_neg hH]; ring]
    generalize H * r ^ 2 / 4 = z
    rw [show (-1 : ℝ) ^ m * ((-z) ^ m * (√|H| * r / 2)) = ((-1) * (-z)) ^ m * (√|H| * r / 2) by
      rw [mul_pow]; ring]
    ring
  rw [this, ser]; ring

/-- `bI` of order two against the derivative of the series. -/
theorem bI_two (N : Nat) (H r : ℝ) (hH : 0 < H) (hr : 0 < r) :
    bI N 2 (√H * r) = r / 2 * ∑ m ∈ Finset.range (N + 1), ser' H m r := by
  rw [Finset.sum_range_succ', ser'_zero, add_zero, bI, Finset.mul_sum]
  refine Finset.sum_congr rfl fun m _ => ?_
  have : (√H * r / 2) ^ (2 * m + 2) = H * r ^ 2 / 4 * (H * r ^ 2 / 4) ^ m := by
    rw [pow_add, pow_mul, show (√H * r / 2) ^ 2 = H * r ^ 2 / 4 by
      rw [div_pow, mul_pow, Real.sq_sqrt hH.le]; norm_num]
    ring
  rw [this, ser', Nat.factorial_succ m]
  have f1 : (m.factorial : ℝ) ≠ 0 := by exact_mod_cast m.factorial_ne_zero
  have f3 : ((m + 1 + 1).factorial : ℝ) ≠ 0 := by exact_mod_cast (m + 1 + 1).factorial_ne_zero
  have f2 : ((m : ℝ) + 1) ≠ 0 := by positivity
  have e : m + 2 = m + 1 + 1 := rfl
  rw [e]
  push_cast [Nat.add_sub_cancel]
  field_simp
  norm_num

/-- The Wronskian type identity `I0 - I2 = 2 I1 / x` for the beginnings of the series. -/
theorem bI_zero (N : Nat) (x : ℝ) (hx : x ≠ 0) :
    bI (N + 1) 0 x - bI N 2 x = 2 / x * bI (N + 1) 1 x := by
  have key : ∀ m : Nat, (x / 2) ^ (2 * (m + 1) + 0) / (((m + 1 + 0).factorial : ℝ) * ((m + 1).factorial : ℝ))
      - (x / 2) ^ (2 * m + 2) / (((m + 2).factorial : ℝ) * (m.factorial : ℝ))
      = 2 / x * ((x / 2) ^ (2 * (m + 1) + 1) / (((m + 1 + 1).factorial : ℝ) * ((m + 1).factorial : ℝ))) := by
    intro m
    have f1 : (m.factorial : ℝ) ≠ 0 := by exact_mod_cast m.factorial_ne_zero
    have f2 : ((m : ℝ) + 1) ≠ 0 := by positivity
    have f3 : ((m : ℝ) + 1 + 1) ≠ 0 := by positivity
    rw [show m + 2 = m + 1 + 1 from rfl, show m + 1 + 0 = m + 1 from rfl, Nat.factorial_succ (m + 1),
      Nat.factorial_succ m]
    rw [show 2 * (m + 1) + 0 = 2 * m + 2 by ring, pow_succ (x / 2) (2 * (m + 1)),
      show 2 * (m + 1) = 2 * m + 2 by ring]
    generalize (x / 2) ^ (2 * m + 2) = P
    push_cast
    field_simp
    ring
  simp only [bI]
  rw [Finset.sum_range_succ' _ N, Finset.sum_range_succ' (fun m => (x / 2) ^ (2 * m + 1) / _) N, mul_add,
    Finset.mul_sum, ← Finset.sum_congr rfl (fun m _ => key m), Finset.sum_sub_distrib]
  simp
  field_simp
  ring

/-- Four dimensions: with the Bessel functions replaced by beginnings of their series (C68_bessel), the
solutions on a slope solve the equation of motion with the friction term `3/rho`, up to a remainder that is
the last term of the series times the force. -/
theorem C68_linear_4d (N : Nat) (l0 dV H : ℝ) (r : ℝ) (hr : 0 < r) (hH : H ≠ 0) :
    ∃ u u' : ℝ → ℝ,
      (0 < H → ∀ x, 0 < x → linPos3 (bI (N + 1)) l0 dV H x = u x) ∧
      (H < 0 → ∀ x, 0 < x → linNeg3 (bJ (N + 1)) l0 dV H x = u x) ∧
      (∀ x, u x = l0 - dV / H + dV / H * ∑ m ∈ Finset.range (N + 1), ser H m x) ∧
      HasDerivAt u (u' r) r ∧
      HasDerivAt u' (dV + H * (u r - l0) - 3 / r * u' r - dV * ser H N r) r := by
  refine ⟨fun x => l0 - dV / H + dV / H * ∑ m ∈ Finset.range (N + 1), ser H m x,
    fun x => dV / H * ∑ m ∈ Finset.range (N + 1), ser' H m x, fun h x hx => ?_, fun h x hx => ?_,
    fun _ => rfl, ?_, ?_⟩
  · have := Real.sqrt_pos.2 h
    rw [linPos3, bI_one _ _ _ h hx, rpow_three_half h]
    field_simp
  · have hA : 0 < |H| := abs_pos.2 hH
    have := Real.sqrt_pos.2 hA
    rw [linNeg3, bJ_one _ _ _ h hx, rpow_three_half hA,
      show 2 * dV * (√|H| * x / 2 * ∑ m ∈ Finset.range (N + 1), ser H m x) / (|H| * √|H| * x)
        = dV / |H| * ∑ m ∈ Finset.range (N + 1), ser H m x by field_simp, abs_of_neg h]
    field_simp
    ring
  · exact ((sum_ode H (N + 1) r hr.ne').1.const_mul (dV / H)).const_add _
  · refine ((sum_ode H (N + 1) r hr.ne').2.const_mul (dV / H)).congr_deriv ?_
    simp only [Nat.add_sub_cancel, Finset.sum_range_succ _ N]
    field_simp
    ring

/-- The velocity of the start on a slope with positive second derivative is the derivative of the
solution; `I2` stops one term earlier. -/
theorem C68_velocity_4d (N : Nat) (l0 dV H r : ℝ) (hH : 0 < H) (hr : 0 < r) :
    HasDerivAt (linPos3 (bI (N + 1)) l0 dV H)
      (linPos3' (fun nu => if nu = 2 then bI N 2 else bI (N + 1) nu) dV H r) r := by
  have hs := Real.sqrt_pos.2 hH
  have h := ((sum_ode H (N + 1) r hr.ne').1.const_mul (dV / H)).const_add (l0 - dV / H)
  have e : ∀ᶠ x in nhds r, 0 < x := lt_mem_nhds hr
  refine (h.congr_of_eventuallyEq (e.mono fun x hx => ?_)).congr_deriv ?_
  · rw [linPos3, bI_one _ _ _ hH hx, rpow_three_half hH]
    field_simp
  · have h2 := bI_two N H r hH hr
    have h0 := bI_zero N (√H * r) (mul_pos hs hr).ne'
    simp only [linPos3', if_true, OfNat.one_ne_ofNat, OfNat.zero_ne_ofNat, if_false,
      rpow_three_half hH]
    have e0 : bI (N + 1) 0 (√H * r) = bI N 2 (√H * r) + 2 / (√H * r) * bI (N + 1) 1 (√H * r) := by
      linarith
    rw [e0, h2]
    field_simp
    ring

/-- Around the minimum: solution and velocity, `I2` stops one term earlier. -/
theorem C68_minimum_4d (N : Nat) (lmin delta H r : ℝ) (hH : 0 < H) (hr : 0 < r) :
    HasDerivAt (minSol3 (bI (N + 1)) lmin delta H) (minSol3' (bI N) delta H r) r ∧
    HasDerivAt (minSol3' (bI N) delta H)
      (H * (minSol3 (bI (N + 1)) lmin delta H r - lmin) - 3 / r * minSol3' (bI N) delta H r
        - delta * H * ser H N r) r := by
  have hs := Real.sqrt_pos.2 hH
  have e : ∀ᶠ x in nhds r, 0 < x := lt_mem_nhds hr
  have hu : ∀ x, 0 < x → minSol3 (bI (N + 1)) lmin delta H x
      = lmin + delta * ∑ m ∈ Finset.range (N + 1), ser H m x := by
    intro x hx
    rw [minSol3, bI_one _ _ _ hH hx]; field_simp
  have hu' : ∀ x, 0 < x → minSol3' (bI N) delta H x
      = delta * ∑ m ∈ Finset.range (N + 1), ser' H m x := by
    intro x hx
    rw [minSol3', mul_comm x, bI_two _ _ _ hH hx]; field_simp
  have h := sum_ode H (N + 1) r hr.ne'
  constructor
  · rw [hu' r hr]
    exact ((h.1.const_mul delta).const_add lmin).congr_of_eventuallyEq (e.mono fun x hx => hu x hx)
  · rw [hu r hr, hu' r hr]
    refine ((h.2.const_mul delta).congr_of_eventuallyEq (e.mono fun x hx => hu' x hx)).congr_deriv ?_
    simp only [Nat.add_sub_cancel, Finset.sum_range_succ _ N]
    ring

/-- At the centre the solutions have the right value. -/
theorem C68_centre_4d (N : Nat) (l0 dV H lmin delta : ℝ) :
    (0 < H → StartsAt (linPos3 (bI (N + 1)) l0 dV H) l0 ∧
      StartsAt (minSol3 (bI (N + 1)) lmin delta H) (lmin + delta)) ∧
    (H < 0 → StartsAt (linNeg3 (bJ (N + 1)) l0 dV H) l0) := by
  have hz : ∑ m ∈ Finset.range (N + 1), ser H m 0 = 1 := by
    rw [Finset.sum_range_succ']
    simp [ser]
  have hc : ContinuousAt (fun r => ∑ m ∈ Finset.range (N + 1), ser H m r) 0 :=
    (HasDerivAt.fun_sum fun m _ => hasDerivAt_ser H m 0).continuousAt
  have hS : Filter.Tendsto (fun r => ∑ m ∈ Finset.range (N + 1), ser H m r) (nhdsWithin 0 (Set.Ioi 0))
      (nhds 1) := by
    have := hc.tendsto
    rw [hz] at this
    exact this.mono_left nhdsWithin_le_nhds
  refine ⟨fun h => ⟨?_, ?_⟩, fun h => ?_⟩
  · have := (hS.const_mul (dV / H)).const_add (l0 - dV / H)
    rw [mul_one, sub_add_cancel] at this
    refine StartsAt.congr this fun x hx => ?_
    obtain ⟨u, u', h1, h2, h3, -⟩ := C68_linear_4d N l0 dV H x hx h.ne'
    rw [h1 h x hx, h3]
  · have := (hS.const_mul delta).const_add lmin
    rw [mul_one] at this
    refine StartsAt.congr this fun x hx => ?_
    have hs := Real.sqrt_pos.2 h
    rw [minSol3, bI_one _ _ _ h hx]; field_simp
  · have := (hS.const_mul (dV / H)).const_add (l0 - dV / H)
    rw [mul_one, sub_add_cancel] at this
    refine StartsAt.congr this fun x hx => ?_
    obtain ⟨u, u', h1, h2, h3, -⟩ := C68_linear_4d N l0 dV H x hx h.ne
    rw [h2 h x hx, h3]

end Verif.Action
