import Verif.Via.RatesProps
import Mathlib.Analysis.Calculus.Deriv.Inv

/-!
# C97: the integrand of the CP-violating source
-/

namespace Verif.Via

open Outcome Spec

theorem cut_le (x : ℝ) : |cut x - x| ≤ 1e-20 := by
  unfold cut smallcut
  split_ifs with h
  · rw [zero_sub, abs_neg]; exact h.le
  · rw [sub_self, abs_zero]; norm_num

/-- The distribution function of the program is the Fermi distribution, and its derivative the derivative, except for
numbers below 10⁻²⁰. -/
theorem C97_fermi (temp w : ℝ) :
    |nf temp w - 1 / (Real.exp (w / temp) + 1)| ≤ 1e-20 ∧
    ∃ d, |nfPrime temp w - d| ≤ 1e-20 ∧ HasDerivAt (fun x => 1 / (Real.exp (x / temp) + 1)) d w := by
  refine ⟨cut_le _, _, cut_le _, ?_⟩
  have hp : 0 < Real.exp (w / temp) + 1 := by positivity
  have h1 : HasDerivAt (fun x => Real.exp (x / temp) + 1) (Real.exp (w / temp) * (1 / temp)) w :=
    (((hasDerivAt_id' w).div_const temp).exp).add_const 1
  refine HasDerivAt.congr_deriv ((hasDerivAt_const w (1 : ℝ)).fun_div h1 hp.ne') ?_
  have : (1 / temp) * w = w / temp := by ring
  rw [this, add_comm (1 : ℝ)]
  congr 1
  ring

/-- The terms of the integrand in the program, with the quotient `pow(k,4)/pow(k,4)`, for the distribution `n` with
derivative `n'`. -/
noncomputable def codedSource (k n n' w g d : ℝ) : ℝ :=
  -(k ^ 4 * g / (2 * w ^ 5)) + 5 * k ^ 4 * g * d / (4 * w ^ 6) + k ^ 4 * g * n / w ^ 5 -
    5 * k ^ 4 * g * d * n / (2 * w ^ 6) + (k ^ 2 / (2 * g) - k ^ 4 / (2 * w ^ 2 * g) - g / 2) * n' +
    (k ^ 4 / (2 * w ^ 3 * g) + 3 * k ^ 4 * g / (2 * w ^ 5)) * d * n'

/-- Without the numbers below 10⁻²⁰ the integrand of the program consists of these terms. -/
theorem integrand_near (temp gamT msq dmsq k : ℝ) (hk : k ≠ 0) :
    |scpIntegrand temp gamT msq dmsq k -
      codedSource k (nf temp √(k ^ 2 + msq)) (nfPrime temp √(k ^ 2 + msq)) √(k ^ 2 + msq) gamT
        (dmsq / (2 * √(k ^ 2 + msq)))| ≤ 6e-20 := by
  unfold scpIntegrand codedSource
  rw [show k * k = k ^ 2 by ring]
  generalize √(k ^ 2 + msq) = w
  generalize dmsq / (2 * w) = d
  have hq : k ^ 4 * gamT / (2 * k ^ 4) = gamT / 2 := by
    have : k ^ 4 ≠ 0 := pow_ne_zero _ hk
    field_simp
  have hw : 2 * w * w * gamT = 2 * w ^ 2 * gamT := by ring
  simp only [hq, hw]
  generalize nf temp w = n
  generalize nfPrime temp w = n'
  generalize h0 : (0 - k ^ 4 * gamT / (2 * w ^ 5)) = a0
  generalize h1 : 5 * k ^ 4 * gamT * d / (4 * w ^ 6) = a1
  generalize h2 : k ^ 4 * gamT * n / w ^ 5 = a2
  generalize h3 : 5 * k ^ 4 * gamT * d * n / (2 * w ^ 6) = a3
  generalize h4 : (k ^ 2 / (2 * gamT) - k ^ 4 / (2 * w ^ 2 * gamT) - gamT / 2) * n' = a4
  generalize h5 : (k ^ 4 / (2 * w ^ 3 * gamT) + 3 * k ^ 4 * gamT / (2 * w ^ 5)) * d * n' = a5
  have h0' : -(k ^ 4 * gamT / (2 * w ^ 5)) = a0 := by rw [← h0, zero_sub]
  rw [h0']
  have e0 := abs_le.1 (cut_le a0)
  have e1 := abs_le.1 (cut_le (cut a0 + a1))
  have e2 := abs_le.1 (cut_le (cut (cut a0 + a1) + a2))
  have e3 := abs_le.1 (cut_le (cut (cut (cut a0 + a1) + a2) - a3))
  have e4 := abs_le.1 (cut_le (cut (cut (cut (cut a0 + a1) + a2) - a3) + a4))
  have e5 := abs_le.1 (cut_le (cut (cut (cut (cut (cut a0 + a1) + a2) - a3) + a4) + a5))
  rw [abs_le]
  constructor <;> norm_num at * <;> linarith [e0.1, e0.2, e1.1, e1.2, e2.1, e2.2, e3.1, e3.2, e4.1, e4.2, e5.1, e5.2]

/-- The integrand of the program is the published one to first order in the width and in the difference of energies,
minus one term that should not be there: the width times the derivative of the distribution times (1 - k⁴/w⁴)/2. -/
theorem C97_source_partial (temp msq dmsq k : ℝ) (hm : 0 < msq) (hk : 0 < k) :
    ∃ a b c d : ℝ,
      IsExpansion (source k (nf temp √(k ^ 2 + msq)) (nfPrime temp √(k ^ 2 + msq)) √(k ^ 2 + msq))
        (fun g => a / g + b * g) (fun g => c / g + d * g) ∧
      ∀ g, 0 < g → |scpIntegrand temp g msq dmsq k -
        (a / g + b * g + dmsq / (2 * √(k ^ 2 + msq)) * (c / g + d * g) -
          g / 2 * (1 - k ^ 4 / √(k ^ 2 + msq) ^ 4) * nfPrime temp √(k ^ 2 + msq))| ≤ 6e-20 := by
  have hw := root_pos (k := k) hm
  have hnear := fun g => integrand_near temp g msq dmsq k hk.ne'
  unfold codedSource at hnear
  generalize √(k ^ 2 + msq) = w at hw hnear ⊢
  generalize nf temp w = n at hnear ⊢
  generalize nfPrime temp w = n' at hnear ⊢
  refine ⟨(k ^ 2 / 2 - k ^ 4 / (2 * w ^ 2)) * n', -(k ^ 4 / (2 * w ^ 5)) + k ^ 4 * n / w ^ 5 - k ^ 4 / (2 * w ^ 4) * n',
    k ^ 4 / (2 * w ^ 3) * n', 5 * k ^ 4 / (4 * w ^ 6) - 5 * k ^ 4 * n / (2 * w ^ 6) + 3 * k ^ 4 / (2 * w ^ 5) * n',
    ?_, fun g hg => ?_⟩
  · have := source_expansion k n n' w hw
    have e1 : (fun g => -(k ^ 4 * g / (2 * w ^ 5)) + k ^ 4 * g * n / w ^ 5 +
        (k ^ 2 / (2 * g) - k ^ 4 / (2 * w ^ 2 * g) - k ^ 4 * g / (2 * w ^ 4)) * n') =
        fun g => (k ^ 2 / 2 - k ^ 4 / (2 * w ^ 2)) * n' / g +
          (-(k ^ 4 / (2 * w ^ 5)) + k ^ 4 * n / w ^ 5 - k ^ 4 / (2 * w ^ 4) * n') * g := by
      funext g
      rw [← div_div, ← div_div]; ring
    have e2 : (fun g => 5 * k ^ 4 * g / (4 * w ^ 6) - 5 * k ^ 4 * g * n / (2 * w ^ 6) +
        (k ^ 4 / (2 * w ^ 3 * g) + 3 * k ^ 4 * g / (2 * w ^ 5)) * n') =
        fun g => k ^ 4 / (2 * w ^ 3) * n' / g +
          (5 * k ^ 4 / (4 * w ^ 6) - 5 * k ^ 4 * n / (2 * w ^ 6) + 3 * k ^ 4 / (2 * w ^ 5) * n') * g := by
      funext g
      rw [← div_div]; ring
    rwa [e1, e2] at this
  · refine le_trans (le_of_eq (congrArg abs ?_)) (hnear g)
    generalize scpIntegrand temp g msq dmsq k = x
    generalize dmsq / (2 * w) = d
    field_simp
    ring

/-- The terms of the program are not the expansion of the published integrand for any momentum, mass and distribution
that is not constant. -/
theorem C97_expansion_fails (k n n' w : ℝ) (hk : 0 < k) (hkw : k < w) (hn : n' ≠ 0) :
    ¬ ∃ L₁, IsExpansion (source k n n' w) (fun g => codedSource k n n' w g 0) L₁ := by
  rintro ⟨L₁, h⟩
  have hw : 0 < w := lt_trans hk hkw
  have h1 := source_expansion k n n' w hw
  have e1 : (fun g => -(k ^ 4 * g / (2 * w ^ 5)) + k ^ 4 * g * n / w ^ 5 +
        (k ^ 2 / (2 * g) - k ^ 4 / (2 * w ^ 2 * g) - k ^ 4 * g / (2 * w ^ 4)) * n') =
        fun g => (k ^ 2 / 2 - k ^ 4 / (2 * w ^ 2)) * n' / g +
          (-(k ^ 4 / (2 * w ^ 5)) + k ^ 4 * n / w ^ 5 - k ^ 4 / (2 * w ^ 4) * n') * g := by
    funext g
    rw [← div_div, ← div_div]; ring
  have e2 : (fun g => codedSource k n n' w g 0) =
        fun g => (k ^ 2 / 2 - k ^ 4 / (2 * w ^ 2)) * n' / g +
          (-(k ^ 4 / (2 * w ^ 5)) + k ^ 4 * n / w ^ 5 - 1 / 2 * n') * g := by
    funext g
    unfold codedSource
    rw [← div_div, ← div_div (k ^ 4)]; ring
  rw [e1] at h1
  rw [e2] at h
  have h2 := expansion_unique h1 h rfl
  have h3 : (k ^ 4 / w ^ 4 - 1) * n' = 0 := by
    have : k ^ 4 / (2 * w ^ 4) = k ^ 4 / w ^ 4 / 2 := by rw [mul_comm, div_div]
    rw [this] at h2
    linear_combination -2 * h2
  rcases mul_eq_zero.1 h3 with h3 | h3
  · rw [sub_eq_zero, div_eq_one_iff_eq (by positivity)] at h3
    exact absurd h3 (ne_of_lt (pow_lt_pow_left₀ hkw hk.le (by norm_num)))
  · exact hn h3

/-- For small momenta the published integrand vanishes with `k²`, while that of the program tends to a constant
different from zero: for a temperature of 1, a width of 0.16 and a thermal mass squared of 1 it is above 0.008 for all
momenta up to 1/100. -/
theorem C97_small_momenta_fails :
    (∀ k, 0 < k → k ≤ 1 / 100 → 0.008 < scpIntegrand 1 0.16 1 0 k) ∧
    ∀ n n' w g d : ℝ, source 0 n n' w g d = 0 := by
  constructor
  · intro k hk hk1
    have hnear := integrand_near 1 0.16 1 0 k hk.ne'
    obtain ⟨w, hwd⟩ : ∃ w, w = √(k ^ 2 + 1) := ⟨_, rfl⟩
    rw [← hwd] at hnear
    have hw : 0 < w := hwd ▸ root_pos one_pos
    have hw2 : w ^ 2 = k ^ 2 + 1 := hwd ▸ root_sq one_pos
    have hw1 : 1 ≤ w := by nlinarith [sq_nonneg k]
    have hw1' : w ≤ 1.01 := by nlinarith [sq_nonneg k]
    -- the distribution
    have he : 2.7 ≤ Real.exp w := by
      have := Real.exp_le_exp.2 hw1
      linarith [Real.exp_one_gt_d9]
    have he' : Real.exp w ≤ 2.8 := by
      have h1 : Real.exp w ≤ Real.exp 1 * Real.exp 0.01 := by
        rw [← Real.exp_add]; exact Real.exp_le_exp.2 (by norm_num at hw1' ⊢; linarith)
      have h2 : Real.exp 0.01 ≤ 1.02 := by
        have h3 := Real.add_one_le_exp (-0.01 : ℝ)
        rw [Real.exp_neg] at h3
        have h4 : Real.exp 0.01 ≤ (0.99 : ℝ)⁻¹ := by
          rw [le_inv_comm₀ (Real.exp_pos _) (by norm_num)]
          norm_num at h3 ⊢; linarith
        refine le_trans h4 (by norm_num)
      nlinarith [Real.exp_one_lt_d9, Real.exp_pos 1, Real.exp_pos 0.01]
    have hn : nf 1 w = 1 / (Real.exp w + 1) := by
      unfold nf cut smallcut
      rw [div_one, if_neg]
      rw [not_lt, abs_of_pos (by positivity), le_div_iff₀ (by positivity)]
      norm_num; linarith
    have hval : Real.exp w / (1 + Real.exp w) ^ 2 ≤ 1 / 4 ∧ 0.19 ≤ Real.exp w / (1 + Real.exp w) ^ 2 := by
      constructor
      · rw [div_le_div_iff₀ (by positivity) (by norm_num)]; nlinarith [sq_nonneg (Real.exp w - 1)]
      · rw [le_div_iff₀ (by positivity)]; norm_num; nlinarith
    have hn' : nfPrime 1 w = -(Real.exp w / (1 + Real.exp w) ^ 2) := by
      unfold nfPrime cut smallcut
      simp only [div_one, one_mul]
      rw [if_neg, neg_div]
      rw [not_lt, neg_div, abs_neg, abs_of_pos (by positivity)]
      refine le_trans (by norm_num) hval.2
    rw [hn, hn'] at hnear
    obtain ⟨q, hq⟩ : ∃ q, q = Real.exp w / (1 + Real.exp w) ^ 2 := ⟨_, rfl⟩
    rw [← hq] at hnear hval
    unfold codedSource at hnear
    simp only [zero_div, mul_zero, zero_mul, add_zero, sub_zero] at hnear
    have hk2 : k ^ 2 ≤ 1 / 10000 := by nlinarith
    have hk4 : k ^ 4 ≤ 1 / 100000000 := by
      have : k ^ 4 = k ^ 2 * k ^ 2 := by ring
      rw [this]; nlinarith [sq_nonneg k]
    have hk4' : 0 ≤ k ^ 4 := by positivity
    have hb1 : k ^ 4 * 0.16 / (2 * w ^ 5) ≤ k ^ 4 := by
      rw [div_le_iff₀ (by positivity)]
      have : (1 : ℝ) ≤ w ^ 5 := one_le_pow₀ hw1
      nlinarith
    have hb2 : 0 ≤ k ^ 4 * 0.16 * (1 / (Real.exp w + 1)) / w ^ 5 := by positivity
    have hb3 : 0 ≤ k ^ 4 / (2 * w ^ 2 * 0.16) * q := mul_nonneg (by positivity) (by linarith [hval.2])
    have hb4 : k ^ 2 / (2 * 0.16) * q ≤ 1 / 10000 / (2 * 0.16) * (1 / 4) := by
      refine mul_le_mul (by gcongr) hval.1 (by linarith [hval.2]) (by norm_num)
    have := (abs_le.1 hnear).1
    have e : (k ^ 2 / (2 * 0.16) - k ^ 4 / (2 * w ^ 2 * 0.16) - 0.16 / 2) * -q =
        -(k ^ 2 / (2 * 0.16) * q) + k ^ 4 / (2 * w ^ 2 * 0.16) * q + 0.16 / 2 * q := by ring
    rw [e] at this
    norm_num at *
    linarith [hval.2]
  · intro n n' w g d
    simp [source]

/-- The source of the program is `N_c v_w/π² Im(f' f*)` times the integrand, with the width 0.16 T of quarks or 0.002 T
of leptons and `Im(f' f*) = 2 m² θ'`. -/
theorem C97_prefactor (lepton : Bool) (temp vw m thetaPrime msq dmsq k : ℝ) :
    ∃ i : ℝ, |i - scpIntegrand temp ((if lepton then 0.002 else 0.16) * temp) msq dmsq k| ≤ 1e-20 ∧
      dScp lepton temp vw m thetaPrime msq dmsq k = 3 * vw / Real.pi ^ 2 * (2 * m ^ 2 * thetaPrime) * i := by
  refine ⟨if smallcut < |scpIntegrand temp ((if lepton then 0.002 else 0.16) * temp) msq dmsq k| then
    scpIntegrand temp ((if lepton then 0.002 else 0.16) * temp) msq dmsq k else 0, ?_, ?_⟩
  · split_ifs with h1 h2 h2
    · rw [sub_self, abs_zero]; norm_num
    · rw [zero_sub, abs_neg]; exact not_lt.1 h2
    · rw [sub_self, abs_zero]; norm_num
    · rw [zero_sub, abs_neg]; exact not_lt.1 h2
  · unfold dScp
    have e : (if lepton then 0.002 * temp else 0.16 * temp) = (if lepton then 0.002 else 0.16) * temp := by
      cases lepton <;> rfl
    simp only [e]
    split_ifs
    all_goals ring

/-- The hypotheses of `C97_source_partial` and of `C97_expansion_fails` can be met. -/
example : ∃ msq k n n' w : ℝ, 0 < msq ∧ 0 < k ∧ k < w ∧ n' ≠ 0 ∧ w = √(k ^ 2 + msq) ∧ 0 < n :=
  ⟨3, 1, 1, -1, 2, by norm_num, by norm_num, by norm_num, by norm_num,
    by rw [show ((1 : ℝ) ^ 2 + 3) = 2 ^ 2 by norm_num, Real.sqrt_sq (by norm_num)], by norm_num⟩

end Verif.Via
