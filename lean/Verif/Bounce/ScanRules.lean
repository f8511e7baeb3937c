import Verif.Bounce.ScanProps

/-!
# C73 Where the scans for bounce actions look next
-/

namespace Verif.Bounce

open Verif Verif.Outcome Verif.Tracer

set_option linter.unusedSectionVars false

variable {K W : Type} [Field K] [LinearOrder K] [IsStrictOrderedRing K]

/-- An action counts as found iff it is positive, at temperature zero as well as at positive temperatures. -/
theorem C73_positive (a T : K) : (0 ≤ T → (posRatio a T = true ↔ 0 < a)) ∧
    (T < 0 → (posRatio a T = true ↔ a < 0)) := by
  unfold posRatio
  constructor
  · intro hT
    rcases hT.eq_or_lt with rfl | hT
    · simp
    · rw [if_neg hT.ne', decide_eq_true_eq, div_pos_iff_of_pos_right hT]
  · intro hT
    rw [if_neg hT.ne, decide_eq_true_eq]
    constructor
    · intro h
      rcases div_pos_iff.1 h with ⟨-, h2⟩ | ⟨h1, -⟩
      · exact absurd h2 (not_lt.2 hT.le)
      · exact h1
    · intro h
      exact div_pos_of_neg_of_neg h hT

/-- The initial scan starts from the straight path until a calculation gives an action that is not negative; from then on
it starts from the path of the calculation before. -/
theorem C73_start_path (e : Env K W) (t a : K) (w : W) :
    scanCalc e t (.fin (-1), none) = e.straight t ∧
    (a < 0 → scanCalc e t (.fin a, some w) = e.straight t) ∧
    (0 ≤ a → scanCalc e t (.fin a, some w) = e.warped w t) ∧
    scanCalc e t (.nan, some w) = e.warped w t := by
  refine ⟨?_, fun h => ?_, fun h => ?_, ?_⟩
  · simp [scanCalc]
  · have : Flt.lt (.fin a) (.fin (0 : K)) = true := by simpa using h
    simp [scanCalc, this]
  · have : Flt.lt (.fin a) (.fin (0 : K)) = false := by rw [Bool.eq_false_iff]; simpa using h
    simp [scanCalc, this]
  · simp [scanCalc]

/-- The initial scan ends early exactly when a positive action below forty times the temperature is found. -/
theorem C73_early_end (a t : K) (w : W) (ht : 0 < t) :
    (lowEnough (.fin a, w) t = true ↔ 0 < a ∧ a < 40 * t) ∧ lowEnough ((.nan, w) : Flt K × W) t = false := by
  refine ⟨?_, rfl⟩
  simp only [lowEnough, Bool.and_eq_true, decide_eq_true_eq, div_lt_iff₀ ht]
  tauto

/-- The straight line through the two points reaches the value at the temperature computed. -/
theorem C73_line (t1 s1 t2 s2 goal : K) (hs : s1 ≠ s2) :
    lineAt t1 s1 t2 s2 goal = t1 + (goal - s1) * ((t2 - t1) / (s2 - s1)) := by
  have h1 : s1 - s2 ≠ 0 := sub_ne_zero.2 hs
  have h2 : s2 - s1 ≠ 0 := sub_ne_zero.2 hs.symm
  unfold lineAt
  field_simp
  ring

/-- One round towards higher actions: while the ratio of action and temperature of the highest solution is at most 200, it
grows with the temperature and the number of rounds allows it, the next temperature is where the line through the last two
solutions has grown by another 10; if that is beyond the critical temperature, as far beyond the last solution as this is
from the one before. Nothing is calculated beyond the critical temperature. -/
theorem C73_high (e : Env K W) (i : Int) (a b : Sol K W) (hT : a.T < b.T) :
    let t' := b.T + 10 * ((b.T - a.T) / (b.ratio - a.ratio))
    let on := (i : K) ≤ 1 + (200 - b.ratio) / 10 ∧ b.ratio ≤ 200 ∧ a.ratio < b.ratio
    (∀ t, highRound e i a b = .goal t ↔ on ∧ t = t' ∧ t' ≤ e.tc) ∧
    (∀ t, highRound e i a b = .flat t ↔ on ∧ e.tc < t' ∧ t = 2 * b.T - a.T ∧ t ≤ e.tc) ∧
    (highRound e i a b = .stop ↔ ¬ on ∨ (e.tc < t' ∧ e.tc < 2 * b.T - a.T)) := by
  intro t' on
  have e2 : b.T + (b.T - a.T) = 2 * b.T - a.T := by ring
  have hline : a.ratio ≠ b.ratio → lineAt a.T a.ratio b.T b.ratio (b.ratio + 10) = t' := by
    intro h
    have h2 : b.ratio - a.ratio ≠ 0 := sub_ne_zero.2 h.symm
    rw [C73_line _ _ _ _ _ h]
    simp only [t']
    field_simp
    ring
  have hstop : ¬ on → highRound e i a b = .stop := by
    intro h
    unfold highRound
    by_cases h1 : (i : K) ≤ 1 + (200 - b.ratio) / 10
    · rw [if_neg (not_not.2 h1)]
      by_cases h2 : b.ratio > 200
      · rw [if_pos h2]
      · rw [if_neg h2]
        have h3 : b.ratio ≤ a.ratio := by
          by_contra hc
          exact h ⟨h1, not_lt.1 h2, not_le.1 hc⟩
        dsimp only
        rw [if_pos]
        rcases h3.eq_or_lt with h3 | h3
        · exact Or.inl h3.symm
        · right
          rw [hline h3.ne']
          have : (b.T - a.T) / (b.ratio - a.ratio) < 0 :=
            div_neg_of_pos_of_neg (by linarith) (by linarith)
          simp only [t']
          linarith
    · rw [if_pos h1]
  have hon : on → highRound e i a b =
      if t' > e.tc then (if 2 * b.T - a.T > e.tc then .stop else .flat (2 * b.T - a.T)) else .goal t' := by
    rintro ⟨h1, h2, h3⟩
    have hpos : 0 < (b.T - a.T) / (b.ratio - a.ratio) := div_pos (by linarith) (by linarith)
    unfold highRound
    rw [if_neg (not_not.2 h1), if_neg (not_lt.2 h2)]
    dsimp only
    rw [hline h3.ne, if_neg, e2]
    rintro (h | h)
    · exact h3.ne h
    · simp only [t'] at h
      linarith
  by_cases h : on
  · rw [hon h]
    by_cases h1 : e.tc < t'
    · rw [if_pos h1]
      by_cases h2 : e.tc < 2 * b.T - a.T
      · rw [if_pos h2]
        refine ⟨fun t => ?_, fun t => ?_, ?_⟩
        · simp [h, not_le.2 h1]
        · simp only [reduceCtorEq, false_iff]
          rintro ⟨-, -, rfl, h3⟩
          exact absurd h3 (not_le.2 h2)
        · simp [h, h1, h2]
      · rw [if_neg h2]
        refine ⟨fun t => ?_, fun t => ?_, ?_⟩
        · simp [h, not_le.2 h1]
        · simp only [Round.flat.injEq]
          exact ⟨fun h3 => ⟨h, h1, h3.symm, h3 ▸ not_lt.1 h2⟩, fun h3 => h3.2.2.1.symm⟩
        · simp [h, h2]
    · rw [if_neg h1]
      refine ⟨fun t => ?_, fun t => ?_, ?_⟩
      · simp only [Round.goal.injEq]
        exact ⟨fun h3 => ⟨h, h3.symm, not_lt.1 h1⟩, fun h3 => h3.2.1.symm⟩
      · simp [h1]
      · simp [h, h1]
  · rw [hstop h]
    simp [h]

/-- One round towards lower actions: the same downwards, while the ratio of the lowest solution is at least 50. -/
theorem C73_low (e : Env K W) (i : Int) (a b : Sol K W) (hT : a.T < b.T) :
    let t' := a.T - 10 * ((b.T - a.T) / (b.ratio - a.ratio))
    let on := (i : K) ≤ 1 + (a.ratio - 50) / 10 ∧ 50 ≤ a.ratio ∧ a.ratio < b.ratio
    (∀ t, lowRound e i a b = .goal t ↔ on ∧ t = t' ∧ e.tm ≤ t') ∧
    (∀ t, lowRound e i a b = .flat t ↔ on ∧ t' < e.tm ∧ t = 2 * a.T - b.T ∧ e.tm ≤ t) ∧
    (lowRound e i a b = .stop ↔ ¬ on ∨ (t' < e.tm ∧ 2 * a.T - b.T < e.tm)) := by
  intro t' on
  have e2 : a.T - (b.T - a.T) = 2 * a.T - b.T := by ring
  have hline : a.ratio ≠ b.ratio → lineAt a.T a.ratio b.T b.ratio (a.ratio - 10) = t' := by
    intro h
    have h2 : b.ratio - a.ratio ≠ 0 := sub_ne_zero.2 h.symm
    rw [C73_line _ _ _ _ _ h]
    simp only [t']
    field_simp
    ring
  have hstop : ¬ on → lowRound e i a b = .stop := by
    intro h
    unfold lowRound
    by_cases h1 : (i : K) ≤ 1 + (a.ratio - 50) / 10
    · rw [if_neg (not_not.2 h1)]
      by_cases h2 : a.ratio < 50
      · rw [if_pos h2]
      · rw [if_neg h2]
        have h3 : b.ratio ≤ a.ratio := by
          by_contra hc
          exact h ⟨h1, not_lt.1 h2, not_le.1 hc⟩
        dsimp only
        rw [if_pos]
        rcases h3.eq_or_lt with h3 | h3
        · exact Or.inl h3.symm
        · right
          rw [hline h3.ne']
          have : (b.T - a.T) / (b.ratio - a.ratio) < 0 :=
            div_neg_of_pos_of_neg (by linarith) (by linarith)
          simp only [t']
          linarith
    · rw [if_pos h1]
  have hon : on → lowRound e i a b =
      if t' < e.tm then (if 2 * a.T - b.T < e.tm then .stop else .flat (2 * a.T - b.T)) else .goal t' := by
    rintro ⟨h1, h2, h3⟩
    have hpos : 0 < (b.T - a.T) / (b.ratio - a.ratio) := div_pos (by linarith) (by linarith)
    unfold lowRound
    rw [if_neg (not_not.2 h1), if_neg (not_lt.2 h2)]
    dsimp only
    rw [hline h3.ne, if_neg, e2]
    rintro (h | h)
    · exact h3.ne h
    · simp only [t'] at h
      linarith
  by_cases h : on
  · rw [hon h]
    by_cases h1 : t' < e.tm
    · rw [if_pos h1]
      by_cases h2 : 2 * a.T - b.T < e.tm
      · rw [if_pos h2]
        refine ⟨fun t => ?_, fun t => ?_, ?_⟩
        · simp [h, not_le.2 h1]
        · simp only [reduceCtorEq, false_iff]
          rintro ⟨-, -, rfl, h3⟩
          exact absurd h3 (not_le.2 h2)
        · simp [h, h1, h2]
      · rw [if_neg h2]
        refine ⟨fun t => ?_, fun t => ?_, ?_⟩
        · simp [h, not_le.2 h1]
        · simp only [Round.flat.injEq]
          exact ⟨fun h3 => ⟨h, h1, h3.symm, h3 ▸ not_lt.1 h2⟩, fun h3 => h3.2.2.1.symm⟩
        · simp [h, h2]
    · rw [if_neg h1]
      refine ⟨fun t => ?_, fun t => ?_, ?_⟩
      · simp only [Round.goal.injEq]
        exact ⟨fun h3 => ⟨h, h3.symm, not_lt.1 h1⟩, fun h3 => h3.2.1.symm⟩
      · simp [h1]
      · simp [h, h1]
  · rw [hstop h]
    simp [h]

theorem calcAt_same (e : Env K W) (l : List (Sol K W)) (t : K) (smart : Bool)
    (h : (calcAt e l t smart).length = l.length) : calcAt e l t smart = l := by
  obtain ⟨r, -, h' | h'⟩ := C25_calculation e l t smart
  · obtain ⟨-, -, -, a, -, -, l1, l2, h1, h2⟩ := h'
    rw [h2, h1] at h
    simp at h
  · exact h'.2

/-- When a scan towards higher or lower actions ends, its rule says stop for the outermost two solutions, or the calculation
it asks for gives nothing, at a flat step from the nearest path, otherwise also from the straight path. -/
theorem C73_scan_end (e : Env K W) (pair : List (Sol K W) → Outcome (Sol K W × Sol K W))
    (round : Int → Sol K W → Sol K W → Round K) : ∀ (fuel : Nat) (i : Int) (l l' : List (Sol K W)),
    scanLoop e pair round fuel i l = some (ok l') → ∃ j ≥ i, ∃ a b, pair l' = ok (a, b) ∧
      (round j a b = .stop ∨ (∃ t, round j a b = .flat t ∧ calcAt e l' t true = l') ∨
        (∃ t, round j a b = .goal t ∧ calcAt e l' t true = l' ∧ calcAt e l' t false = l')) := by
  intro fuel
  induction fuel with
  | zero => intro i l l' h; simp [scanLoop] at h
  | succ fuel ih =>
    intro i l l' h
    rw [scanLoop] at h
    cases hp : pair l with
    | err x => rw [hp] at h; simp at h
    | ub x => rw [hp] at h; simp at h
    | ok p =>
      obtain ⟨a, b⟩ := p
      rw [hp] at h
      dsimp only at h
      cases hr : round i a b with
      | stop =>
        rw [hr] at h
        obtain rfl : l = l' := by simpa using h
        exact ⟨i, le_rfl, a, b, hp, Or.inl hr⟩
      | flat t =>
        rw [hr] at h
        dsimp only at h
        by_cases hl : (calcAt e l t true).length = l.length
        · rw [if_pos hl] at h
          have hs := calcAt_same e l t true hl
          rw [hs] at h
          obtain rfl : l = l' := by simpa using h
          exact ⟨i, le_rfl, a, b, hp, Or.inr (Or.inl ⟨t, hr, hs⟩)⟩
        · rw [if_neg hl] at h
          exact ih i _ _ h
      | goal t =>
        rw [hr] at h
        dsimp only at h
        by_cases hl : (tryBoth e l t).length = l.length
        · rw [if_pos hl] at h
          have h1 : (calcAt e l t true).length = l.length := by
            by_contra hc
            have : tryBoth e l t = calcAt e l t true := by simp only [tryBoth]; rw [if_neg hc]
            rw [this] at hl
            exact hc hl
          have hs := calcAt_same e l t true h1
          have ht : tryBoth e l t = calcAt e l t false := by
            simp only [tryBoth]; rw [if_pos h1, hs]
          rw [ht] at hl h
          have hs2 := calcAt_same e l t false hl
          rw [hs2] at h
          obtain rfl : l = l' := by simpa using h
          exact ⟨i, le_rfl, a, b, hp, Or.inr (Or.inr ⟨t, hr, hs, hs2⟩)⟩
        · rw [if_neg hl] at h
          obtain ⟨j, hj, r⟩ := ih (i + 1) _ _ h
          exact ⟨j, by omega, r⟩

/-- The scans look at the last two and at the first two solutions. -/
theorem C73_ends (e : Env K W) (fuel : Nat) (l : List (Sol K W)) (p q : Sol K W) (m : List (Sol K W)) :
    lastTwo (m ++ [p, q]) = ok (p, q) ∧ firstTwo (p :: q :: m) = ok (p, q) ∧
    scanHigh e fuel l = scanLoop e lastTwo (highRound e) fuel 0 l ∧
    scanLow e fuel l = scanLoop e firstTwo (lowRound e) fuel 0 l := by
  refine ⟨by simp [lastTwo], rfl, rfl, rfl⟩

section Floor

variable [FloorRing K]

/-- The refinement between two neighbouring solutions: unless both ratios are above 200 or below 50, the interval is divided into
the least number of equal parts across which the interpolated ratio grows by at most 20, and of the inner points those are
taken where the interpolated ratio is between 0 and 400. -/
theorem C73_between (a b : Sol K W) (hT : a.T < b.T) (t : K) :
    t ∈ between a b ↔ a.ratio ≤ 200 ∧ 50 ≤ b.ratio ∧ ∃ n : Nat, ∃ i : Nat,
      (b.ratio - a.ratio ≤ 20 * n ∧ 20 * ((n : K) - 1) < b.ratio - a.ratio) ∧ 1 ≤ i ∧ i < n ∧
      t = a.T + i * ((b.T - a.T) / n) ∧
      0 < a.ratio + i * ((b.ratio - a.ratio) / n) ∧ a.ratio + i * ((b.ratio - a.ratio) / n) < 400 := by
  have hne : b.T - a.T ≠ 0 := by intro h; linarith
  unfold between
  by_cases h1 : a.ratio > 200
  · rw [if_pos h1]
    simp [not_le.2 h1]
  rw [if_neg h1]
  by_cases h2 : b.ratio < 50
  · rw [if_pos h2]
    simp [not_le.2 h2]
  rw [if_neg h2]
  dsimp only
  set num : Int := ⌈(b.ratio - a.ratio) / 20⌉ with hnum
  have hceil : ∀ n : Nat, 1 ≤ n → ((b.ratio - a.ratio ≤ 20 * n ∧ 20 * ((n : K) - 1) < b.ratio - a.ratio) ↔
      num = n) := by
    intro n _
    rw [hnum, Int.ceil_eq_iff]
    constructor
    · rintro ⟨p, q⟩
      refine ⟨?_, ?_⟩
      · rw [lt_div_iff₀ (by norm_num)]; push_cast; linarith
      · rw [div_le_iff₀ (by norm_num)]; push_cast; linarith
    · rintro ⟨p, q⟩
      rw [lt_div_iff₀ (by norm_num)] at p
      rw [div_le_iff₀ (by norm_num)] at q
      push_cast at p q
      constructor <;> linarith
  simp only [List.mem_filter, List.mem_map, List.mem_range, Bool.and_eq_true, decide_eq_true_eq]
  constructor
  · rintro ⟨⟨i, hi, rfl⟩, hlt, hgt⟩
    obtain ⟨n, hn⟩ : ∃ n : Nat, num = n := ⟨num.toNat, by omega⟩
    have hn2 : i + 1 < n := by omega
    have hn0 : (n : K) ≠ 0 := by
      have : n ≠ 0 := by omega
      exact_mod_cast this
    have hcast : ((num : Int) : K) = n := by rw [hn]; simp
    rw [hcast] at hlt hgt ⊢
    have hp : (a.T + ((i : K) + 1) * ((b.T - a.T) / n) - a.T) * (b.ratio - a.ratio) / (b.T - a.T) + a.ratio
        = a.ratio + ((i + 1 : Nat) : K) * ((b.ratio - a.ratio) / n) := by
      push_cast
      field_simp
      ring
    rw [hp] at hlt hgt
    refine ⟨not_lt.1 h1, not_lt.1 h2, n, i + 1, (hceil n (by omega)).2 hn, by omega, hn2, ?_, hgt, hlt⟩
    push_cast
    rfl
  · rintro ⟨-, -, n, i, hn, hi1, hin, rfl, hgt, hlt⟩
    have hn' := (hceil n (by omega)).1 hn
    have hn0 : (n : K) ≠ 0 := by
      have : n ≠ 0 := by omega
      exact_mod_cast this
    have hcast : ((num : Int) : K) = n := by rw [hn']; simp
    have hi' : ((i - 1 : Nat) : K) + 1 = i := by
      rw [Nat.cast_sub hi1]; push_cast; ring
    refine ⟨⟨i - 1, by omega, by rw [hcast, hi']⟩, ?_, ?_⟩
    · have hp : (a.T + (i : K) * ((b.T - a.T) / n) - a.T) * (b.ratio - a.ratio) / (b.T - a.T) + a.ratio
          = a.ratio + (i : K) * ((b.ratio - a.ratio) / n) := by field_simp; ring
      rw [hp]; exact hlt
    · have hp : (a.T + (i : K) * ((b.T - a.T) / n) - a.T) * (b.ratio - a.ratio) / (b.T - a.T) + a.ratio
          = a.ratio + (i : K) * ((b.ratio - a.ratio) / n) := by field_simp; ring
      rw [hp]; exact hgt

example : between (K := ℚ) (W := Unit) ⟨60, 6000, ()⟩ ⟨80, 12000, ()⟩ = [60 + 20 / 3, 60 + 40 / 3] := by
  decide +kernel

end Floor

example : highRound exEnv 0 ⟨60, 3000, ()⟩ ⟨80, 12000, ()⟩ = .goal 82 ∧
    lowRound exEnv 0 ⟨60, 3000, ()⟩ ⟨80, 12000, ()⟩ = .goal 58 := by
  constructor
  · have := (C73_high exEnv 0 ⟨60, 3000, ()⟩ ⟨80, 12000, ()⟩ (by norm_num)).1 82
    rw [this]; simp [Sol.ratio, exEnv]; norm_num
  · have := (C73_low exEnv 0 ⟨60, 3000, ()⟩ ⟨80, 12000, ()⟩ (by norm_num)).1 58
    rw [this]; simp [Sol.ratio, exEnv]; norm_num

end Verif.Bounce
