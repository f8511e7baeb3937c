import Verif.Tracer.Crit
import Mathlib.Algebra.Order.Archimedean.Basic
import Mathlib.Topology.Order.IntermediateValue
import Mathlib.Topology.Instances.Real.Lemmas
import Mathlib.Tactic.Linarith
import Mathlib.Tactic.Positivity
import Mathlib.Tactic.FieldSimp

/-!
# C21: the critical temperature
-/

namespace Verif.Tracer

set_option linter.unusedSectionVars false

variable {σ K : Type} [Field K] [LinearOrder K] [IsStrictOrderedRing K]

/-! ### The binary search -/

/-- Whatever the evaluation does, the interval found lies inside the given one, the difference was seen
not positive at its lower end and positive at its upper end, and it is narrow. -/
theorem bisect_sound (ev : σ → K → K × σ) (fuel : Nat) (lo hi mid : K) (s : σ) (r : K × σ)
    (h : bisect ev fuel lo hi mid s = some r) (hle : lo ≤ hi) (hm : mid = lo ∨ mid = hi)
    (hlo : ∃ s, (ev s lo).1 ≤ 0) (hhi : ∃ s, (ev s hi).1 > 0) :
    ∃ l u, lo ≤ l ∧ l ≤ u ∧ u ≤ hi ∧ (r.1 = l ∨ r.1 = u) ∧ |u / l - 1| ≤ 1 / 10 ^ 10 ∧
      (∃ s, (ev s l).1 ≤ 0) ∧ ∃ s, (ev s u).1 > 0 := by
  induction fuel generalizing lo hi mid s with
  | zero => simp [bisect] at h
  | succ fuel ih =>
    rw [bisect] at h
    split at h
    · dsimp only at h
      have h1 : lo ≤ (hi + lo) / 2 := by linarith
      have h2 : (hi + lo) / 2 ≤ hi := by linarith
      split at h
      · rename_i hd
        obtain ⟨l, u, a, b, c, d⟩ := ih _ _ _ _ h h1 (Or.inr rfl) hlo ⟨s, hd⟩
        exact ⟨l, u, a, b, c.trans h2, d⟩
      · rename_i hd
        obtain ⟨l, u, a, b, c, d⟩ := ih _ _ _ _ h h2 (Or.inl rfl) ⟨s, not_lt.1 hd⟩ hhi
        exact ⟨l, u, h1.trans a, b, c, d⟩
    · rename_i hc
      cases h
      exact ⟨lo, hi, le_refl _, hle, le_refl _, hm, not_lt.1 hc, hlo, hhi⟩

theorem bisect_terminates [Archimedean K] (ev : σ → K → K × σ) (lo hi mid : K) (s : σ)
    (hlo : 0 < lo) (hle : lo ≤ hi) : ∃ fuel r, bisect ev fuel lo hi mid s = some r := by
  obtain ⟨k, hk⟩ := pow_unbounded_of_one_lt ((hi - lo) / (lo / 10 ^ 10)) (one_lt_two : (1 : K) < 2)
  have hpos : (0 : K) < lo / 10 ^ 10 := by positivity
  rw [div_lt_iff₀ hpos] at hk
  have key : ∀ (k : Nat) (b lo hi mid : K) (s : σ), 0 < b → b ≤ lo → lo ≤ hi →
      hi - lo < 2 ^ k * (b / 10 ^ 10) → ∃ r, bisect ev (k + 1) lo hi mid s = some r := by
    intro k
    induction k with
    | zero =>
      intro b lo hi mid s hb hbl hle hw
      rw [bisect, if_neg]
      · exact ⟨_, rfl⟩
      · have hl : 0 < lo := lt_of_lt_of_le hb hbl
        rw [gt_iff_lt, not_lt]
        have e : hi / lo - 1 = (hi - lo) / lo := by field_simp
        rw [e, abs_of_nonneg (div_nonneg (by linarith) hl.le), div_le_iff₀ hl]
        have : b / 10 ^ 10 ≤ 1 / 10 ^ 10 * lo := by
          rw [div_mul_eq_mul_div, one_mul]
          exact div_le_div_of_nonneg_right hbl (by positivity)
        simp only [pow_zero, one_mul] at hw
        linarith
    | succ k ih =>
      intro b lo hi mid s hb hbl hle hw
      rw [bisect]
      split
      · dsimp only
        rw [pow_succ] at hw
        split
        · exact ih b _ _ _ _ hb hbl (by linarith) (by linarith)
        · exact ih b _ _ _ _ hb (by linarith) (by linarith) (by linarith)
      · exact ⟨_, rfl⟩
  obtain ⟨r, hr⟩ := key k lo lo hi mid s hlo (le_refl _) hle hk
  exact ⟨k + 1, r, hr⟩

theorem bisect_mono (ev : σ → K → K × σ) (fuel : Nat) (lo hi mid : K) (s : σ) (r : K × σ)
    (h : bisect ev fuel lo hi mid s = some r) (m : Nat) : bisect ev (fuel + m) lo hi mid s = some r := by
  induction fuel generalizing lo hi mid s with
  | zero => simp [bisect] at h
  | succ fuel ih =>
    rw [show fuel + 1 + m = (fuel + m) + 1 by omega, bisect]
    rw [bisect] at h
    split
    · rename_i hc
      rw [if_pos hc] at h
      dsimp only at h ⊢
      split
      · rename_i hd
        rw [if_pos hd] at h
        exact ih _ _ _ _ h
      · rename_i hd
        rw [if_neg hd] at h
        exact ih _ _ _ _ h
    · rename_i hc
      rw [if_neg hc] at h
      exact h

/-! ### The plotting loop -/

theorem plotTemps_some (lo hi : K) (h : lo < hi) (j : Nat) (hj : j ≤ 101) (extra : Nat) :
    ∃ ts, plotTemps (102 - j + extra) lo hi (lo + j * ((hi - lo) / 100)) = some ts ∧
      ts.length = 101 - j ∧ ∀ t ∈ ts, lo ≤ t ∧ t ≤ hi := by
  have hd : 0 < (hi - lo) / 100 := by
    apply div_pos <;> linarith
  have e100 : (100 : K) * ((hi - lo) / 100) = hi - lo := by field_simp
  obtain ⟨i, hi'⟩ : ∃ i, j + i = 101 := ⟨101 - j, by omega⟩
  induction i generalizing j with
  | zero =>
    obtain rfl : j = 101 := by omega
    rw [show 102 - 101 + extra = extra + 1 by omega, plotTemps, if_neg]
    · exact ⟨[], rfl, rfl, by simp⟩
    · push_cast
      rw [not_le]; nlinarith
  | succ i ih =>
    obtain ⟨ts, h1, h2, h3⟩ := ih (j + 1) (by omega) (by omega)
    have hjK : (j : K) ≤ 100 := by exact_mod_cast (by omega : j ≤ 100)
    have hj0 : (0 : K) ≤ j := by positivity
    have hin : lo ≤ lo + j * ((hi - lo) / 100) ∧ lo + j * ((hi - lo) / 100) ≤ hi :=
      ⟨by nlinarith [mul_nonneg hj0 hd.le], by nlinarith⟩
    rw [show 102 - j + extra = (102 - (j + 1) + extra) + 1 by omega, plotTemps, if_pos hin.2]
    have e : lo + (j : K) * ((hi - lo) / 100) + (hi - lo) / 100 =
        lo + ((j + 1 : Nat) : K) * ((hi - lo) / 100) := by push_cast; ring
    rw [e, h1]
    refine ⟨_, rfl, by simp [h2]; omega, ?_⟩
    intro t ht
    rcases List.mem_cons.1 ht with rfl | ht
    · exact hin
    · exact h3 t ht

theorem plotTemps_stuck (lo : K) (fuel : Nat) : plotTemps fuel lo lo lo = none := by
  induction fuel with
  | zero => rfl
  | succ fuel ih =>
    rw [plotTemps, if_pos (le_refl _), sub_self, zero_div, add_zero, ih]; rfl

/-! ### C21 -/

/-- C21: a result of the calculation, whatever the evaluation does: -1 for the false phase always lower,
-2 for failure, the upper end of the window for the true phase always lower, and for success a
temperature inside the window that is an end of an interval of relative width at most 1e-10, at the lower
end of which the true phase was seen not to be higher than the false phase, and at the upper end of which
it was seen to be higher. -/
theorem C21_result (ev : σ → K → K × σ) (fuel : Nat) (lo hi : K) (s : σ) (c : Crit) (tc : K) (s' : σ)
    (h : calculateTc ev fuel lo hi s = some ((c, tc), s')) (hle : lo ≤ hi) :
    (c = .falseLower ∧ tc = -1 ∧ (∃ s, (ev s hi).1 > 0) ∧ ∃ s, (ev s lo).1 > 0) ∨
    (c = .trueLower ∧ tc = hi ∧ (∃ s, (ev s hi).1 < 0) ∧ ∃ s, (ev s lo).1 < 0) ∨
    (c = .failure ∧ tc = -2) ∨
    (c = .success ∧ ∃ l u, lo ≤ l ∧ l ≤ u ∧ u ≤ hi ∧ (tc = l ∨ tc = u) ∧ |u / l - 1| ≤ 1 / 10 ^ 10 ∧
      (∃ s, (ev s l).1 ≤ 0) ∧ ∃ s, (ev s u).1 > 0) := by
  have ends : ∀ (p q : K → Bool) (s : σ), (testEnds ev lo hi p q s).1 = true →
      (∃ s, p (ev s hi).1 = true) ∧ ∃ s, q (ev s lo).1 = true := by
    intro p q s h
    unfold testEnds at h
    dsimp only at h
    split at h
    · rename_i hp
      exact ⟨⟨s, hp⟩, ⟨_, h⟩⟩
    · cases h
  unfold calculateTc at h
  split at h
  · cases h
  · dsimp only at h
    split at h
    · rename_i h1
      obtain ⟨⟨s1, e1⟩, s2, e2⟩ := ends _ _ _ h1
      cases h
      exact Or.inl ⟨rfl, rfl, ⟨s1, of_decide_eq_true e1⟩, s2, of_decide_eq_true e2⟩
    · split at h
      · rename_i h1
        obtain ⟨⟨s1, e1⟩, s2, e2⟩ := ends _ _ _ h1
        cases h
        exact Or.inr (Or.inl ⟨rfl, rfl, ⟨s1, of_decide_eq_true e1⟩, s2, of_decide_eq_true e2⟩)
      · split at h
        · rename_i h1
          obtain ⟨⟨s1, e1⟩, s2, e2⟩ := ends _ _ _ h1
          rw [Option.map_eq_some_iff] at h
          obtain ⟨r, hr, e⟩ := h
          cases e
          have := bisect_sound ev fuel lo hi lo _ r hr hle (Or.inl rfl)
            ⟨s2, (of_decide_eq_true e2 : _ < _).le⟩ ⟨s1, of_decide_eq_true e1⟩
          exact Or.inr (Or.inr (Or.inr ⟨rfl, this⟩))
        · cases h
          exact Or.inr (Or.inr (Or.inl ⟨rfl, rfl⟩))

/-- C21: for a difference of potentials that depends on the temperature only, the status is determined
by its signs at the two ends of the window. -/
theorem C21_status (dV : K → K) (fuel : Nat) (lo hi : K) (c : Crit) (tc : K)
    (h : calculateTc (pureEv dV) fuel lo hi () = some ((c, tc), ())) :
    (c = .falseLower ↔ dV hi > 0 ∧ dV lo > 0) ∧ (c = .trueLower ↔ dV hi < 0 ∧ dV lo < 0) ∧
    (c = .success ↔ dV hi > 0 ∧ dV lo < 0) ∧
    (c = .failure ↔ dV hi = 0 ∨ dV lo = 0 ∨ (dV hi < 0 ∧ dV lo > 0)) := by
  have ends : ∀ p q : K → Bool, (testEnds (pureEv dV) lo hi p q ()).1 = (p (dV hi) && q (dV lo)) := by
    intro p q
    simp only [testEnds, pureEv]
    by_cases hp : p (dV hi) = true <;> simp [hp]
  unfold calculateTc at h
  split at h
  · cases h
  · simp only [ends] at h
    rcases lt_trichotomy (dV hi) 0 with h1 | h1 | h1 <;> rcases lt_trichotomy (dV lo) 0 with h2 | h2 | h2
    all_goals
      simp [h1, h2, not_lt_of_gt] at h
      try obtain ⟨⟨rfl, _⟩, _⟩ := h
      try obtain ⟨_, _, rfl, _⟩ := h
      try obtain ⟨rfl, _⟩ := h
      simp [h1, h2, not_lt_of_gt, ne_of_gt, ne_of_lt]

/-- C21: for a continuous difference of potentials, a successful critical temperature is within 1e-10 of
a temperature inside the window at which the two phases are degenerate. -/
theorem C21_degenerate (dV : ℝ → ℝ) (fuel : Nat) (lo hi tc : ℝ) (hlo : 0 < lo) (hle : lo ≤ hi)
    (hcont : ContinuousOn dV (Set.Icc lo hi))
    (h : calculateTc (pureEv dV) fuel lo hi () = some ((.success, tc), ())) :
    lo ≤ tc ∧ tc ≤ hi ∧ ∃ t, lo ≤ t ∧ t ≤ hi ∧ dV t = 0 ∧ |tc - t| ≤ 1 / 10 ^ 10 * t := by
  rcases C21_result _ _ _ _ _ _ _ _ h hle with h1 | h1 | h1 | h1
  · exact absurd h1.1 (by simp)
  · exact absurd h1.1 (by simp)
  · exact absurd h1.1 (by simp)
  · obtain ⟨_, l, u, h1, h2, h3, h4, h5, ⟨s1, h6⟩, s2, h7⟩ := h1
    simp only [pureEv] at h6 h7
    have hl : 0 < l := lt_of_lt_of_le hlo h1
    obtain ⟨t, ht, e⟩ := intermediate_value_Icc h2
      (hcont.mono (Set.Icc_subset_Icc h1 h3)) ⟨h6, h7.le⟩
    have hw : u - l ≤ 1 / 10 ^ 10 * l := by
      have e1 : u / l - 1 = (u - l) / l := by field_simp
      rw [e1, abs_of_nonneg (div_nonneg (by linarith) hl.le), div_le_iff₀ hl] at h5
      exact h5
    have hw2 : (1 : ℝ) / 10 ^ 10 * l ≤ 1 / 10 ^ 10 * t :=
      mul_le_mul_of_nonneg_left ht.1 (by positivity)
    refine ⟨?_, ?_, t, h1.trans ht.1, ht.2.trans h3, e, ?_⟩
    · rcases h4 with h4 | h4 <;> linarith
    · rcases h4 with h4 | h4 <;> linarith
    · have := ht.1
      have := ht.2
      rcases h4 with h4 | h4 <;> rw [h4, abs_le] <;> constructor <;> linarith

/-- C21: the calculation ends for every window of positive width at positive temperatures. -/
theorem C21_terminates [Archimedean K] (ev : σ → K → K × σ) (lo hi : K) (s : σ) (hlo : 0 < lo)
    (hlt : lo < hi) : ∃ fuel r, calculateTc ev fuel lo hi s = some r := by
  obtain ⟨ts, hts, _⟩ := plotTemps_some lo hi hlt 0 (by omega) 0
  simp only [Nat.cast_zero, zero_mul, add_zero] at hts
  -- the state in which the binary search starts does not depend on the fuel
  obtain ⟨f, r, hf⟩ := bisect_terminates ev lo hi lo
    (testEnds ev lo hi (fun x => decide (x > 0)) (fun x => decide (x < 0))
      (testEnds ev lo hi (fun x => decide (x < 0)) (fun x => decide (x < 0))
        (testEnds ev lo hi (fun x => decide (x > 0)) (fun x => decide (x > 0))
          (ts.foldl (fun s t => (ev s t).2) s)).2).2).2 hlo hlt.le
  have hts' : plotTemps (102 + f) lo hi lo = some ts := by
    obtain ⟨ts', h', _⟩ := plotTemps_some lo hi hlt 0 (by omega) f
    simp only [Nat.cast_zero, zero_mul, add_zero] at h'
    have mono : ∀ (fuel : Nat) (t : K) (ts : List K), plotTemps fuel lo hi t = some ts → ∀ m,
        plotTemps (fuel + m) lo hi t = some ts := by
      intro fuel
      induction fuel with
      | zero => intro t ts h; simp [plotTemps] at h
      | succ fuel ih =>
        intro t ts h m
        rw [show fuel + 1 + m = (fuel + m) + 1 by omega, plotTemps]
        rw [plotTemps] at h
        split
        · rename_i hc
          rw [if_pos hc, Option.map_eq_some_iff] at h
          obtain ⟨ts', h1, rfl⟩ := h
          rw [ih _ _ h1 m]; rfl
        · rename_i hc
          rw [if_neg hc] at h; exact h
    exact mono _ _ _ hts f
  have hf' := bisect_mono ev f lo hi lo _ r hf 102
  rw [Nat.add_comm] at hf'
  refine ⟨102 + f, ?_⟩
  unfold calculateTc
  simp only [hts']
  split
  · exact ⟨_, rfl⟩
  · split
    · exact ⟨_, rfl⟩
    · split
      · rw [hf']; exact ⟨_, rfl⟩
      · exact ⟨_, rfl⟩

/-- C21: a window that starts at temperature zero is handled as well, provided the true phase is not
higher in a neighbourhood of zero (which holds for a continuous difference). -/
theorem C21_terminates_from_zero [Archimedean K] (dV : K → K) (hi mid δ : K) (hhi : 0 < hi) (hδ : 0 < δ)
    (hneg : ∀ t, 0 ≤ t → t ≤ δ → dV t ≤ 0) : ∃ fuel r, bisect (pureEv dV) fuel 0 hi mid () = some r := by
  obtain ⟨k, hk⟩ := pow_unbounded_of_one_lt (hi / δ) (one_lt_two : (1 : K) < 2)
  rw [div_lt_iff₀ hδ] at hk
  induction k generalizing hi mid with
  | zero =>
    have hstep : ∀ fuel, bisect (pureEv dV) (fuel + 1) 0 hi mid () =
        bisect (pureEv dV) fuel ((hi + 0) / 2) hi ((hi + 0) / 2) () := by
      intro fuel
      rw [bisect, if_pos (by rw [div_zero]; norm_num)]
      dsimp only [pureEv]
      rw [if_neg (not_lt.2 (hneg _ (by linarith) (by linarith)))]
    obtain ⟨f, r, h⟩ := bisect_terminates (pureEv dV) ((hi + 0) / 2) hi ((hi + 0) / 2) ()
      (by linarith) (by linarith)
    exact ⟨f + 1, r, by rw [hstep]; exact h⟩
  | succ k ih =>
    rw [pow_succ] at hk
    by_cases hp : dV ((hi + 0) / 2) > 0
    · obtain ⟨f, r, h⟩ := ih ((hi + 0) / 2) ((hi + 0) / 2) (by linarith) (by linarith)
      refine ⟨f + 1, r, ?_⟩
      rw [bisect, if_pos (by rw [div_zero]; norm_num)]
      dsimp only [pureEv]
      rw [if_pos hp]; exact h
    · obtain ⟨f, r, h⟩ := bisect_terminates (pureEv dV) ((hi + 0) / 2) hi ((hi + 0) / 2) ()
        (by linarith) (by linarith)
      refine ⟨f + 1, r, ?_⟩
      rw [bisect, if_pos (by rw [div_zero]; norm_num)]
      dsimp only [pureEv]
      rw [if_neg hp]; exact h

/-- C21 is false of the code when two phases touch at one temperature only, which is accepted as a pair
(see `C22_pairs`): the plotting loop advances by zero and never ends. -/
theorem C21_touching_phases_never_finish (ev : σ → K → K × σ) (t : K) (s : σ) (fuel : Nat) :
    calculateTc ev fuel t t s = none := by
  rw [calculateTc, plotTemps_stuck]

/-- C21: a crossing exactly at an end of the window is reported as a failure. -/
theorem C21_crossing_at_end_fails :
    (calculateTc (pureEv fun t : ℚ => t - 100) 200 50 100 ()).map (·.1) = some (.failure, -2) := by
  decide +kernel

/-- A crossing at 75 in the window from 50 to 100. -/
example : ∃ tc, (calculateTc (pureEv fun t : ℚ => t - 75) 200 50 100 ()).map (·.1) = some (.success, tc) ∧
    |tc - 75| ≤ 75 / 10 ^ 10 := by
  refine ⟨((calculateTc (pureEv fun t : ℚ => t - 75) 200 50 100 ()).map (·.1)).elim 0 (·.2),
    by decide +kernel, by decide +kernel⟩

end Verif.Tracer
