import Verif.Perc.FractionProps
import Verif.Bounce.RatesProps
import Verif.Bounce.TempsProps
import Mathlib.Analysis.SpecialFunctions.Pow.Continuity

/-!
# C110: percolation and completion for the tunnelling rate of the code
-/

namespace Verif.Perc

open Verif Verif.Outcome MeasureTheory

theorem hubble_eq (g mpl : ℝ) :
    Bounce.hubbleRate g mpl = fun x => Real.pi * Real.sqrt g / Real.sqrt 90 / mpl * x ^ 2 := by
  funext x; unfold Bounce.hubbleRate; ring

theorem rate_eq {temps : List ℝ} {action : ℝ → ℝ} {lo hi : ℝ} (h1 : temps.head? = some lo)
    (h2 : temps.getLast? = some hi) (t : ℝ) :
    rate temps action t = if t < lo ∨ t > hi then 0 else if action t < 0 then 10 ^ 100
      else t ^ 4 * (action t / (2 * Real.pi * t)) ^ (3 / 2 : ℝ) * Real.exp (-action t / t) := by
  unfold rate Bounce.tunnelingRate
  rw [h1, h2]
  dsimp only
  split_ifs <;> rfl

/-- **C110** The rate used in the integral is not negative, and positive where the action is. -/
theorem C110_rate (temps : List ℝ) (action : ℝ → ℝ) (lo hi : ℝ) (h1 : temps.head? = some lo)
    (h2 : temps.getLast? = some hi) (hlo : 0 < lo) (t : ℝ) :
    0 ≤ rate temps action t ∧ (lo ≤ t → t ≤ hi → 0 < action t → 0 < rate temps action t) := by
  obtain ⟨r, hr, h0, -, -, hp⟩ := (Bounce.C57_rate temps action t).2 lo hi h1 h2 hlo
  have : rate temps action t = r := by unfold rate; rw [hr]
  rw [this]
  exact ⟨h0, hp⟩

/-- For a continuous action the rate can be integrated. -/
theorem rate_integrable {temps : List ℝ} {action : ℝ → ℝ} {lo hi : ℝ} (h1 : temps.head? = some lo)
    (h2 : temps.getLast? = some hi) (hc : Continuous action) {a b : ℝ} (ha : 0 < a) :
    IntegrableOn (rate temps action) (Set.Icc a b) := by
  have hm : MeasurableSet {x | action x < 0} := (isOpen_lt hc continuous_const).measurableSet
  have e : rate temps action =
      fun x => Set.indicator (Set.Icc lo hi ∩ {x | action x < 0}) (fun _ => (10 : ℝ) ^ 100) x +
        Set.indicator (Set.Icc lo hi ∩ {x | action x < 0}ᶜ)
          (fun t => t ^ 4 * (action t / (2 * Real.pi * t)) ^ (3 / 2 : ℝ) * Real.exp (-action t / t)) x := by
    funext x
    rw [rate_eq h1 h2]
    by_cases hx : x ∈ Set.Icc lo hi
    · have : ¬ (x < lo ∨ x > hi) := by
        rintro (h | h)
        · exact absurd hx.1 (not_le.2 h)
        · exact absurd hx.2 (not_le.2 h)
      rw [if_neg this]
      by_cases hn : action x < 0
      · simp [hx, hn, Set.indicator]
      · simp [hx, hn, Set.indicator]
    · have : x < lo ∨ x > hi := by
        by_contra hcon
        push Not at hcon
        exact hx hcon
      rw [if_pos this]
      simp [hx, Set.indicator]
  rw [e]
  apply Integrable.add
  · apply Integrable.indicator _ (measurableSet_Icc.inter hm)
    exact continuousOn_const.integrableOn_compact isCompact_Icc
  · apply Integrable.indicator _ (measurableSet_Icc.inter hm.compl)
    apply ContinuousOn.integrableOn_compact isCompact_Icc
    have hx0 : ∀ x ∈ Set.Icc a b, x ≠ 0 := fun x hx => by
      have : 0 < x := by linarith [hx.1]
      exact this.ne'
    apply ContinuousOn.mul
    · apply ContinuousOn.mul (by fun_prop)
      apply ContinuousOn.rpow_const
      · apply ContinuousOn.div hc.continuousOn (by fun_prop)
        intro x hx
        have := hx0 x hx
        have := Real.pi_pos.ne'
        positivity
      · intro x _; right; norm_num
    · apply Real.continuous_exp.comp_continuousOn
      exact (hc.neg.continuousOn).div continuousOn_id hx0

/-- The exponent does not grow with the temperature. -/
theorem exponent_anti {temps : List ℝ} {action : ℝ → ℝ} {lo hi : ℝ} (h1 : temps.head? = some lo)
    (h2 : temps.getLast? = some hi) (hlo : 0 < lo) (hc : Continuous action) {h v tc t₁ t₂ : ℝ} (hh : 0 < h)
    (hv : 0 ≤ v) (ht : 0 < t₁) (h12 : t₁ ≤ t₂) (htc : t₂ ≤ tc) :
    exponent (rate temps action) (fun x => h * x ^ 2) v tc t₂ ≤
      exponent (rate temps action) (fun x => h * x ^ 2) v tc t₁ := by
  unfold exponent
  apply mul_le_mul_of_nonneg_left _ (by positivity)
  rw [outer_eq _ hh ht (by linarith), outer_eq _ hh (by linarith) htc]
  have hi1 := rate_integrable h1 h2 hc (b := tc) ht
  have hsub : Set.Icc t₂ tc ⊆ Set.Icc t₁ tc := Set.Icc_subset_Icc_left h12
  have hn : ∀ x, 0 ≤ rate temps action x := fun x => (C110_rate temps action lo hi h1 h2 hlo x).1
  calc ∫ x in Set.Icc t₂ tc, rate temps action x * kern h t₂ x
      ≤ ∫ x in Set.Icc t₂ tc, rate temps action x * kern h t₁ x := by
        apply setIntegral_mono_on _ _ measurableSet_Icc
        · intro x hx
          apply mul_le_mul_of_nonneg_left _ (hn x)
          rcases h12.lt_or_eq with h' | h'
          · exact (kern_lt hh ht h' hx.1).le
          · rw [h']
        · exact (kern_integrable hh (by linarith) ht hi1).mono_set hsub
        · exact (kern_integrable hh ht ht hi1).mono_set hsub
    _ ≤ ∫ x in Set.Icc t₁ tc, rate temps action x * kern h t₁ x := by
        apply setIntegral_mono_set (kern_integrable hh ht ht hi1)
        · filter_upwards [ae_restrict_mem measurableSet_Icc] with x hx
          exact mul_nonneg (hn x) (kern_nonneg hh ht hx.1)
        · exact hsub.eventuallyLE

/-- **C110** For the rates of the code and every continuous positive action, the fraction falls strictly with the
temperature below the highest temperature of the solutions, and it never exceeds 1. -/
theorem C110_code (temps : List ℝ) (action : ℝ → ℝ) (lo hi g mpl v tc t₁ t₂ : ℝ) (h1 : temps.head? = some lo)
    (h2 : temps.getLast? = some hi) (hlo : 0 < lo) (hlh : lo < hi) (hhi : hi ≤ tc) (hc : Continuous action)
    (hp : ∀ x, lo ≤ x → x ≤ hi → 0 < action x) (hg : 0 < g) (hm : 0 < mpl) (hv : 0 < v) (ht : 0 < t₁)
    (h12 : t₁ < t₂) (h2c : t₂ ≤ tc) :
    fraction (rate temps action) (Bounce.hubbleRate g mpl) v tc t₂ ≤ 1 ∧
    (t₁ < hi → fraction (rate temps action) (Bounce.hubbleRate g mpl) v tc t₁ <
      fraction (rate temps action) (Bounce.hubbleRate g mpl) v tc t₂) ∧
    (hi ≤ t₁ → fraction (rate temps action) (Bounce.hubbleRate g mpl) v tc t₁ = 1) := by
  rw [hubble_eq]
  have hh : 0 < Real.pi * Real.sqrt g / Real.sqrt 90 / mpl := by have := Real.pi_pos; positivity
  generalize Real.pi * Real.sqrt g / Real.sqrt 90 / mpl = h at hh
  have hn : ∀ x, 0 ≤ rate temps action x := fun x => (C110_rate temps action lo hi h1 h2 hlo x).1
  refine ⟨(C110_bounds _ h v tc t₂ hh hv.le (by linarith) h2c hn).2.1, fun hlt => ?_, fun hge => ?_⟩
  · apply C110_monotone _ h v tc t₁ t₂ (max t₁ lo) hi hh hv ht h12 h2c hn (rate_integrable h1 h2 hc ht)
      (le_max_left _ _) (max_lt hlt hlh) hhi
    intro x hx
    have := (max_lt_iff.1 hx.1)
    exact (C110_rate temps action lo hi h1 h2 hlo x).2 this.2.le hx.2.le (hp x this.2.le hx.2.le)
  · unfold fraction Bounce.falseVacFraction
    rw [outer_eq _ hh ht (by linarith)]
    have : ∫ x in Set.Icc t₁ tc, rate temps action x * kern h t₁ x = 0 := by
      apply integral_eq_zero_of_ae
      have hz : ∀ᵐ x : ℝ ∂(volume.restrict (Set.Icc t₁ tc)), x ≠ t₁ := by
        apply ae_restrict_of_ae
        exact (measure_eq_zero_iff_ae_notMem.1 (by simp : volume ({t₁} : Set ℝ) = 0)).mono fun x hx => by simpa using hx
      filter_upwards [ae_restrict_mem measurableSet_Icc, hz] with x hx hne
      have hx1 : hi < x := lt_of_le_of_lt hge (lt_of_le_of_ne hx.1 (Ne.symm hne))
      rw [rate_eq h1 h2, if_pos (Or.inr hx1)]
      simp
    rw [this]
    simp

/-- **C110** A faster wall never leaves more false vacuum. -/
theorem C110_velocity (Γ : ℝ → ℝ) (h v w tc t : ℝ) (hh : 0 < h) (hv : 0 ≤ v) (hvw : v ≤ w) (ht : 0 < t)
    (htc : t ≤ tc) (hΓ : ∀ x, 0 ≤ Γ x) :
    fraction Γ (fun x => h * x ^ 2) w tc t ≤ fraction Γ (fun x => h * x ^ 2) v tc t := by
  unfold fraction Bounce.falseVacFraction
  rw [Real.exp_le_exp, neg_mul, neg_mul, neg_le_neg_iff]
  apply mul_le_mul_of_nonneg_right
  · have := Real.pi_pos; gcongr
  · rw [outer_eq Γ hh ht htc]
    exact setIntegral_nonneg measurableSet_Icc fun x hx => mul_nonneg (hΓ x) (kern_nonneg hh ht hx.1)

theorem near_bounds {goal x : ℝ} (hg : 1 / 10 ^ 9 ≤ goal) (h : Bounce.Near (1 / 10 ^ 3) goal x) :
    998 / 1000 * goal ≤ x ∧ x ≤ 1002 / 1000 * goal := by
  have hg0 : 0 < goal := by linarith [show (0 : ℝ) < 1 / 10 ^ 9 by norm_num]
  rcases h with ⟨h, -⟩ | h
  · rw [abs_of_pos hg0] at h
    norm_num at h hg
    linarith
  · rcases abs_cases (goal - x) with ⟨e1, h1⟩ | ⟨e1, h1⟩ <;> rcases abs_cases (goal + x) with ⟨e2, h2⟩ | ⟨e2, h2⟩ <;>
      rw [e1, e2] at h <;> constructor <;> linarith

/-- A temperature the search accepts lies between the temperatures of the solutions. -/
theorem accepted_range {I : ℝ → Flt ℝ} {goal : ℝ} {fuel : Nat} {sols : List ℝ} {m tc : ℝ}
    (hs : ∀ t ∈ sols, 0 < t ∧ t ≤ tc) (h : Bounce.tempAtFraction I goal fuel sols = some m) (hm : 0 < m) :
    m ≤ tc ∧ ∃ x, I m = .fin x ∧ Bounce.Near (1 / 10 ^ 3) goal x := by
  rcases Bounce.C27_search_result I goal fuel sols (fun t ht => (hs t ht).1) m h with h | ⟨u, d, hu, hd, ⟨hc, hx⟩⟩
  · linarith
  · refine ⟨?_, hx⟩
    have hu1 := (hs u (by simpa using List.mem_of_find?_eq_some hu)).2
    have hd1 := (hs d (by simpa using List.mem_of_find?_eq_some hd)).2
    obtain ⟨u', d', hu', hd', -, -, -, hm'⟩ := hc
    have hmax : max u d ≤ tc := max_le hu1 hd1
    rcases hm' with rfl | rfl
    · exact le_trans hu'.2 hmax
    · exact le_trans hd'.2 hmax

/-- **C110** Completion comes after percolation: a temperature reported for the fraction 1 % is lower than one
reported for 71 %. -/
theorem C110_order (temps : List ℝ) (action : ℝ → ℝ) (lo hi g mpl v tc : ℝ) (h1 : temps.head? = some lo)
    (h2 : temps.getLast? = some hi) (hlo : 0 < lo) (hc : Continuous action) (hg : 0 < g) (hm : 0 < mpl)
    (hv : 0 ≤ v) (hs : ∀ t ∈ temps, 0 < t ∧ t ≤ tc) (I : ℝ → Flt ℝ)
    (hI : ∀ t, I t = .fin (exponent (rate temps action) (Bounce.hubbleRate g mpl) v tc t)) (fuel fuel' : Nat)
    (tp tf : ℝ) (hp : Bounce.tempAtFraction I (Bounce.exponentGoal (71 / 100)) fuel temps = some tp) (hp0 : 0 < tp)
    (hf : Bounce.tempAtFraction I (Bounce.exponentGoal (1 / 100)) fuel' temps = some tf) (hf0 : 0 < tf) :
    tf < tp := by
  rw [hubble_eq] at hI
  have hh : 0 < Real.pi * Real.sqrt g / Real.sqrt 90 / mpl := by have := Real.pi_pos; positivity
  generalize Real.pi * Real.sqrt g / Real.sqrt 90 / mpl = h at hh hI
  obtain ⟨hp1, x, hx, hxn⟩ := accepted_range hs hp hp0
  obtain ⟨hf1, y, hy, hyn⟩ := accepted_range hs hf hf0
  rw [hI] at hx hy
  injection hx with hx
  injection hy with hy
  have g1 : Bounce.exponentGoal (71 / 100) ≤ 29 / 71 := by
    have := Real.one_sub_inv_le_log_of_pos (show (0 : ℝ) < 71 / 100 by norm_num)
    unfold Bounce.exponentGoal
    norm_num at this ⊢
    linarith
  have g2 : 1 / 10 ^ 9 ≤ Bounce.exponentGoal (71 / 100) := by
    have := Real.log_le_sub_one_of_pos (show (0 : ℝ) < 71 / 100 by norm_num)
    unfold Bounce.exponentGoal
    norm_num at this ⊢
    linarith
  have g3 : 99 / 100 ≤ Bounce.exponentGoal (1 / 100) := by
    have := Real.log_le_sub_one_of_pos (show (0 : ℝ) < 1 / 100 by norm_num)
    unfold Bounce.exponentGoal
    norm_num at this ⊢
    linarith
  have b1 := near_bounds g2 hxn
  have b2 := near_bounds (le_trans (by norm_num) g3) hyn
  by_contra hcon
  push Not at hcon
  have := exponent_anti h1 h2 hlo hc (h := h) (v := v) hh hv hp0 hcon hf1
  rw [hx, hy] at this
  linarith [b1.2, b2.1]

/-- The rates of two solutions at 50 and 100 with a constant positive action. -/
example : fraction (rate [50, 100] fun _ => 10000) (Bounce.hubbleRate (Bounce.gstarPureRad 4) (10 ^ 18)) (1 / 2) 120 60 <
    fraction (rate [50, 100] fun _ => 10000) (Bounce.hubbleRate (Bounce.gstarPureRad 4) (10 ^ 18)) (1 / 2) 120 70 :=
  (C110_code [50, 100] (fun _ => 10000) 50 100 _ _ (1 / 2) 120 60 70 rfl rfl (by norm_num) (by norm_num) (by norm_num)
    continuous_const (fun _ _ _ => by norm_num) (by unfold Bounce.gstarPureRad; positivity) (by norm_num) (by norm_num)
    (by norm_num) (by norm_num) (by norm_num)).2.1 (by norm_num)

end Verif.Perc
