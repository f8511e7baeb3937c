import Verif.Perc.Model
import Verif.Perc.Spec
import Verif.GW.Model
import Mathlib.Tactic.LinearCombination

/-!
# C112: the strength of the transition and the wall velocity
-/

namespace Verif.Perc

open Verif Verif.Outcome

/-- **C112** The strength is the difference of a quarter of the trace of the energy-momentum tensor between the false
and the true vacuum, in units of the energy density of the radiation. -/
theorem C112_strength (g t : ℝ) (hg : 0 < g) (ht : 0 < t) (f tr : Spec.Phase) :
    strength g t f.v tr.v f.d tr.d * Spec.radiation g t = f.theta t - tr.theta t := by
  have hpi := Real.pi_pos
  unfold strength rhoGamma Spec.radiation Spec.Phase.theta Spec.Phase.energy Spec.Phase.pressure
  field_simp
  ring

/-- **C112** For two phases with vacuum energies `ε` and radiation terms `-a T⁴` the strength is the difference of the
vacuum energies over the energy density of the radiation, whatever the radiation terms are. -/
theorem C112_bag (g t εf εt af at' : ℝ) (hg : 0 < g) (ht : 0 < t) (df dt : ℝ)
    (hf : HasDerivAt (fun x => εf - af * x ^ 4) df t) (ht' : HasDerivAt (fun x => εt - at' * x ^ 4) dt t) :
    strength g t (εf - af * t ^ 4) (εt - at' * t ^ 4) df dt = (εf - εt) / Spec.radiation g t := by
  have hpi := Real.pi_pos
  have d : ∀ ε a : ℝ, HasDerivAt (fun x => ε - a * x ^ 4) (-(4 * a * t ^ 3)) t := by
    intro ε a
    refine HasDerivAt.congr_deriv (((hasDerivAt_pow 4 t).const_mul a).const_sub ε) ?_
    norm_num
    ring
  rw [hf.unique (d εf af), ht'.unique (d εt at')]
  unfold strength rhoGamma Spec.radiation
  field_simp
  ring

/-- **C112** The Chapman–Jouguet velocity lies between the velocity of sound and the velocity of light. -/
theorem C112_cj_range (cs alpha : ℝ) (hc : 0 < cs) (hc1 : cs < 2 / 3) (ha : 0 < alpha) :
    cs < chapmanJouguet cs alpha ∧ chapmanJouguet cs alpha < 1 := by
  unfold chapmanJouguet
  have h1 : 0 < 1 + alpha := by linarith
  have hs : alpha < Real.sqrt (alpha ^ 2 + 2 / 3 * alpha) := by
    rw [Real.lt_sqrt ha.le]; nlinarith
  have hs2 : Real.sqrt (alpha ^ 2 + 2 / 3 * alpha) < alpha + 1 / 3 := by
    rw [Real.sqrt_lt' (by linarith)]; nlinarith
  constructor
  · rw [one_div, ← div_eq_inv_mul, lt_div_iff₀ h1]
    nlinarith
  · rw [one_div, ← div_eq_inv_mul, div_lt_iff₀ h1]
    linarith

/-- **C112** For the velocity of sound `1/√3` it is the velocity of the published relation
`α = (√3 v - 1)² / (3 (1 - v²))` for a detonation whose fluid leaves the wall at the velocity of sound. -/
theorem C112_cj_published (alpha v : ℝ) (ha : 0 < alpha) :
    v = chapmanJouguet (1 / Real.sqrt 3) alpha ↔
      1 / Real.sqrt 3 ≤ v ∧ v < 1 ∧ alpha = (Real.sqrt 3 * v - 1) ^ 2 / (3 * (1 - v ^ 2)) := by
  have h3 : 0 < Real.sqrt 3 := Real.sqrt_pos.2 (by norm_num)
  have h32 : Real.sqrt 3 ^ 2 = 3 := Real.sq_sqrt (by norm_num)
  have hc1 : 1 / Real.sqrt 3 < 2 / 3 := by
    rw [div_lt_iff₀ h3]
    nlinarith
  have h1 : 0 < 1 + alpha := by linarith
  have hq : 0 ≤ alpha ^ 2 + 2 / 3 * alpha := by positivity
  have hs := Real.sq_sqrt hq
  have hs0 := Real.sqrt_nonneg (alpha ^ 2 + 2 / 3 * alpha)
  have hr := C112_cj_range (1 / Real.sqrt 3) alpha (by positivity) hc1 ha
  -- the quadratic equation
  have key : ∀ v : ℝ, 0 < 1 - v ^ 2 → (alpha = (Real.sqrt 3 * v - 1) ^ 2 / (3 * (1 - v ^ 2)) ↔
      (v * (1 + alpha) - 1 / Real.sqrt 3) ^ 2 = alpha ^ 2 + 2 / 3 * alpha) := by
    intro v hv
    have e : (v * (1 + alpha) - 1 / Real.sqrt 3) ^ 2 - (alpha ^ 2 + 2 / 3 * alpha) =
        -(1 + alpha) / 3 * (alpha * (3 * (1 - v ^ 2)) - (Real.sqrt 3 * v - 1) ^ 2) := by
      have i : 1 / Real.sqrt 3 = Real.sqrt 3 / 3 := by
        rw [div_eq_div_iff h3.ne' (by norm_num)]; linarith [h32, sq (Real.sqrt 3)]
      rw [i]
      generalize Real.sqrt 3 = r at h32
      linear_combination (1 / 9 - v ^ 2 * (1 + alpha) / 3) * h32
    rw [eq_div_iff (by positivity), ← sub_eq_zero, ← sub_eq_zero (b := alpha ^ 2 + 2 / 3 * alpha), e, mul_eq_zero]
    constructor
    · intro h; exact Or.inr h
    · rintro (h | h)
      · exfalso; linarith
      · exact h
  constructor
  · rintro rfl
    refine ⟨hr.1.le, hr.2, ?_⟩
    rw [key _ (by nlinarith [hr.1, hr.2, show (0 : ℝ) < 1 / Real.sqrt 3 by positivity])]
    unfold chapmanJouguet
    have : 1 / (1 + alpha) * (1 / Real.sqrt 3 + Real.sqrt (alpha ^ 2 + 2 / 3 * alpha)) * (1 + alpha) - 1 / Real.sqrt 3 =
        Real.sqrt (alpha ^ 2 + 2 / 3 * alpha) := by field_simp; ring
    rw [this, hs]
  · rintro ⟨hv, hv1, h⟩
    have hv0 : 0 < v := lt_of_lt_of_le (by positivity) hv
    rw [key v (by nlinarith)] at h
    have hpos : 0 ≤ v * (1 + alpha) - 1 / Real.sqrt 3 := by nlinarith
    have : v * (1 + alpha) - 1 / Real.sqrt 3 = Real.sqrt (alpha ^ 2 + 2 / 3 * alpha) := by
      rw [← h, Real.sqrt_sq hpos]
    unfold chapmanJouguet
    rw [one_div, ← div_eq_inv_mul, eq_div_iff h1.ne']
    linarith

/-- **C112** The gravitational waves use the same Chapman–Jouguet velocity. -/
theorem C112_cj_same (alpha : ℝ) : chapmanJouguet (Real.sqrt (1 / 3)) alpha = GW.xiJ alpha := by
  unfold chapmanJouguet GW.xiJ
  rw [show alpha ^ 2 + 2 / 3 * alpha = 2 / 3 * alpha + alpha * alpha by ring]
  ring

/-- **C112** The velocity for the value -1 is `√(ΔV / (α ρ))` up to the Chapman–Jouguet velocity and 1 beyond it; it
is a number between 0 and 1. -/
theorem C112_approx (cs g t alpha dv : ℝ) (hc : 0 < cs) (hc1 : cs < 2 / 3) (hg : 0 < g) (ht : 0 < t) (ha : 0 < alpha)
    (hv : 0 ≤ dv) :
    ∃ v, velocityApprox cs g t alpha dv = .fin v ∧ 0 ≤ v ∧ v ≤ 1 ∧
      (v ≤ chapmanJouguet cs alpha → v ^ 2 * (alpha * Spec.radiation g t) = dv) ∧
      (chapmanJouguet cs alpha < v → v = 1 ∧ chapmanJouguet cs alpha ^ 2 * (alpha * Spec.radiation g t) < dv) := by
  have hpi := Real.pi_pos
  have hr : rhoGamma g t = Spec.radiation g t := by unfold rhoGamma Spec.radiation; ring
  have hr0 : 0 < Spec.radiation g t := by unfold Spec.radiation; positivity
  obtain ⟨r1, r2⟩ := C112_cj_range cs alpha hc hc1 ha
  unfold velocityApprox
  rw [hr]
  dsimp only
  generalize Spec.radiation g t = ρ at hr0
  generalize chapmanJouguet cs alpha = c at r1 r2
  rw [if_neg (by positivity), if_neg (not_lt.2 (by positivity)),
    if_neg (by rintro (h | h) <;> nlinarith)]
  split_ifs with h
  · refine ⟨1, rfl, by norm_num, le_refl _, fun h' => absurd r2 (not_lt.2 h'), fun _ => ⟨rfl, ?_⟩⟩
    have hc0 : 0 < c := by linarith
    have := (Real.lt_sqrt hc0.le).1 h
    rwa [lt_div_iff₀ (by positivity)] at this
  · refine ⟨_, rfl, Real.sqrt_nonneg _, by linarith, fun _ => ?_, fun h' => absurd h' h⟩
    rw [Real.sq_sqrt (by positivity)]
    field_simp

/-- **C112** (failure) Where the true vacuum is not the deeper one the velocity is NaN, for every positive strength. -/
theorem C112_approx_nan_fails (cs g t alpha dv : ℝ) (hg : 0 < g) (ht : 0 < t) (ha : 0 < alpha) (hv : dv < 0) :
    velocityApprox cs g t alpha dv = .nan := by
  have hpi := Real.pi_pos
  have hr0 : 0 < rhoGamma g t := by unfold rhoGamma; positivity
  unfold velocityApprox
  dsimp only
  rw [if_neg (by positivity), if_pos (div_neg_of_neg_of_pos hv (by positivity))]

/-- Such points exist: near the critical temperature the strength is positive because of the entropy, even where the
difference of the potentials is negative. -/
example : ∃ vi vf di df : ℝ, vi - vf < 0 ∧ 0 < strength 100 100 vi vf di df := by
  refine ⟨0, 1, 0, 10, by norm_num, ?_⟩
  unfold strength rhoGamma
  have hpi := Real.pi_pos
  norm_num
  positivity

/-! ### The value -2 -/

/-- **C112** The velocity for the value -2 is below the square roots of both terms. -/
theorem C112_upper (cs alpha psi : ℝ) (hp : psi < 1) (h1 : 0 < upperFirst alpha psi) (h2 : 0 < upperSecond cs alpha psi) :
    ∃ v, velocityUpper cs alpha psi = .fin v ∧ 0 < v ∧ v < Real.sqrt (upperFirst alpha psi) ∧
      v < Real.sqrt (upperSecond cs alpha psi) := by
  unfold velocityUpper
  dsimp only
  rw [if_neg (not_lt.2 hp.le), if_neg hp.ne, if_neg (by rintro (h | h) <;> linarith)]
  generalize upperFirst alpha psi = x at h1
  generalize upperSecond cs alpha psi = y at h2
  refine ⟨_, rfl, by positivity, ?_, ?_⟩
  · have : Real.sqrt x = (x ^ (-3433 / 1000 / 2 : ℝ)) ^ (1 / (-3433 / 1000) : ℝ) := by
      rw [← Real.rpow_mul h1.le, Real.sqrt_eq_rpow]; norm_num
    rw [this]
    apply Real.rpow_lt_rpow_of_neg (by positivity) _ (by norm_num)
    have : 0 < y ^ (-3433 / 1000 / 2 : ℝ) := by positivity
    linarith
  · have : Real.sqrt y = (y ^ (-3433 / 1000 / 2 : ℝ)) ^ (1 / (-3433 / 1000) : ℝ) := by
      rw [← Real.rpow_mul h2.le, Real.sqrt_eq_rpow]; norm_num
    rw [this]
    apply Real.rpow_lt_rpow_of_neg (by positivity) _ (by norm_num)
    have : 0 < x ^ (-3433 / 1000 / 2 : ℝ) := by positivity
    linarith

/-- **C112** (failure) The velocity for the value -2 may exceed the velocity of light: for `α = 10⁻⁶` and `Ψ = 0.99`, with
the velocity of sound of the code. -/
theorem C112_upper_superluminal_fails : ∃ v, velocityUpper 0.5773502691896258 (1 / 10 ^ 6) (99 / 100) = .fin v ∧ 1 < v := by
  have hcj := C112_cj_range 0.5773502691896258 (1 / 10 ^ 6) (by norm_num) (by norm_num) (by norm_num)
  have hx : (4 : ℝ) ≤ upperFirst (1 / 10 ^ 6) (99 / 100) := by
    unfold upperFirst
    rw [abs_div, abs_of_neg (by norm_num), abs_of_pos (by norm_num), le_div_iff₀ (by norm_num)]
    norm_num
  have hb : (1 / 100 : ℝ) ^ 2 ≤ (1 - 99 / 100 : ℝ) ^ (1704 / 1000 : ℝ) := by
    rw [← Real.rpow_natCast, show (1 - 99 / 100 : ℝ) = 1 / 100 by norm_num]
    apply Real.rpow_le_rpow_of_exponent_ge <;> norm_num
  have hy : (4 : ℝ) ≤ upperSecond 0.5773502691896258 (1 / 10 ^ 6) (99 / 100) := by
    unfold upperSecond
    generalize (1 - 99 / 100 : ℝ) ^ (1704 / 1000 : ℝ) = z at hb
    generalize chapmanJouguet 0.5773502691896258 (1 / 10 ^ 6) = c at hcj
    have hz : 1 - 2233 / 10000 * z / (1 / 10 ^ 6) ≤ -20 := by
      norm_num at hb ⊢
      linarith
    rw [abs_mul, abs_of_pos (by linarith [hcj.1, show (0 : ℝ) < 0.5773502691896258 by norm_num]), abs_of_neg (by linarith)]
    have : (1 / 2 : ℝ) < c := by linarith [hcj.1, show (1 / 2 : ℝ) < 0.5773502691896258 by norm_num]
    nlinarith
  unfold velocityUpper
  dsimp only
  rw [if_neg (by norm_num), if_neg (by norm_num), if_neg (by rintro (h | h) <;> linarith)]
  refine ⟨_, rfl, ?_⟩
  generalize upperFirst (1 / 10 ^ 6) (99 / 100) = x at hx
  generalize upperSecond 0.5773502691896258 (1 / 10 ^ 6) (99 / 100) = y at hy
  have hpow : ∀ w : ℝ, 4 ≤ w → w ^ (-3433 / 1000 / 2 : ℝ) ≤ 1 / 4 := by
    intro w hw
    calc w ^ (-3433 / 1000 / 2 : ℝ) ≤ (4 : ℝ) ^ (-3433 / 1000 / 2 : ℝ) :=
          Real.rpow_le_rpow_of_nonpos (by norm_num) hw (by norm_num)
      _ ≤ (4 : ℝ) ^ (-1 : ℝ) := Real.rpow_le_rpow_of_exponent_le (by norm_num) (by norm_num)
      _ = 1 / 4 := by rw [Real.rpow_neg_one]; norm_num
  have hx' := hpow x hx
  have hy' := hpow y hy
  apply Real.one_lt_rpow_of_pos_of_lt_one_of_neg
  · have : 0 < x := by linarith
    positivity
  · linarith
  · norm_num

/-- **C112** (failure) For equal derivatives in the two phases (`Ψ = 1`) the velocity for the value -2 is the square root of
the Chapman–Jouguet velocity and therefore above it. -/
theorem C112_upper_cj_fails (cs alpha : ℝ) (hc : 0 < cs) (hc1 : cs < 2 / 3) (ha : 0 < alpha) :
    velocityUpper cs alpha 1 = .fin (Real.sqrt (chapmanJouguet cs alpha)) ∧
      chapmanJouguet cs alpha < Real.sqrt (chapmanJouguet cs alpha) := by
  obtain ⟨r1, r2⟩ := C112_cj_range cs alpha hc hc1 ha
  have h0 : 0 < chapmanJouguet cs alpha := by linarith
  constructor
  · unfold velocityUpper upperSecond
    dsimp only
    rw [if_neg (lt_irrefl _), if_pos rfl, sub_self, Real.zero_rpow (by norm_num)]
    rw [mul_zero, zero_div, sub_zero, mul_one, abs_of_pos h0, ← Real.rpow_mul h0.le, Real.sqrt_eq_rpow]
    norm_num
  · rw [Real.lt_sqrt h0.le]
    nlinarith

end Verif.Perc
