import Verif.Bounce.Temps
import Verif.Bounce.ScanProps
import Mathlib.Order.Interval.Set.UnorderedInterval

/-!
# C26, C27, C28: characteristic temperatures and transition strength
-/

namespace Verif.Bounce

open Verif Verif.Outcome Verif.Tracer

set_option linter.unusedSectionVars false

variable {K W : Type} [Field K] [LinearOrder K] [IsStrictOrderedRing K]

/-! ### Specification -/

/-- `u` and `d` lie between `a` and `b`, the condition holds at `u` and not at `d`, they agree up to
the relative accuracy `ε`, and `m` is one of them. -/
def Crossing (below : K → Bool) (ε a b m : K) : Prop :=
  ∃ u d, u ∈ Set.uIcc a b ∧ d ∈ Set.uIcc a b ∧ below u = true ∧ below d = false ∧
    |u / d - 1| < ε ∧ (m = u ∨ m = d)

/-! ### The bracket -/

theorem bracket_eq (below above : K → Bool) (l : List K) (hpos : ∀ t ∈ l, 0 < t) (up down : K)
    (hu : up = -1 ∨ 0 < up) (hd : down = -1 ∨ 0 < down) (hn : ¬(up > 0 ∧ down > 0)) :
    bracket below above l up down =
      (if up = -1 then (l.find? below).getD (-1) else up,
       if down = -1 then (l.find? above).getD (-1) else down) := by
  induction l generalizing up down with
  | nil => simp [bracket]
  | cons t r ih =>
    have ht : 0 < t := hpos t (by simp)
    have ht1 : t ≠ -1 := by intro h; rw [h] at ht; linarith
    have hr : ∀ t ∈ r, 0 < t := fun x hx => hpos x (by simp [hx])
    have hne : ∀ x : K, 0 < x → x ≠ -1 := by intro x hx h; rw [h] at hx; linarith
    have hm1 : ¬((-1 : K) > 0) := by norm_num
    rw [bracket]
    have hu' : (if up = -1 ∧ below t = true then t else up) = -1 ∨
        0 < (if up = -1 ∧ below t = true then t else up) := by
      split
      · exact Or.inr ht
      · exact hu
    have hd' : (if down = -1 ∧ above t = true then t else down) = -1 ∨
        0 < (if down = -1 ∧ above t = true then t else down) := by
      split
      · exact Or.inr ht
      · exact hd
    have e1 : (if up = -1 then ((t :: r).find? below).getD (-1) else up) =
        (if (if up = -1 ∧ below t = true then t else up) = -1 then (r.find? below).getD (-1)
          else (if up = -1 ∧ below t = true then t else up)) := by
      by_cases h1 : up = -1 <;> cases h2 : below t <;> simp [h1, h2, ht1]
    have e2 : (if down = -1 then ((t :: r).find? above).getD (-1) else down) =
        (if (if down = -1 ∧ above t = true then t else down) = -1 then (r.find? above).getD (-1)
          else (if down = -1 ∧ above t = true then t else down)) := by
      by_cases h1 : down = -1 <;> cases h2 : above t <;> simp [h1, h2, ht1]
    rw [e1, e2]
    generalize (if up = -1 ∧ below t = true then t else up) = up' at *
    generalize (if down = -1 ∧ above t = true then t else down) = down' at *
    by_cases hb : up' > 0 ∧ down' > 0
    · rw [if_pos hb, if_neg (hne _ hb.1), if_neg (hne _ hb.2)]
    · rw [if_neg hb]
      exact ih hr up' down' hu' hd' hb

/-- The search finds the first temperature (from the top) on either side of the condition. -/
theorem bracket_first (below above : K → Bool) (l : List K) (hpos : ∀ t ∈ l, 0 < t) :
    bracket below above l (-1) (-1) = ((l.find? below).getD (-1), (l.find? above).getD (-1)) := by
  have := bracket_eq below above l hpos (-1) (-1) (Or.inl rfl) (Or.inl rfl) (by norm_num)
  simpa using this

theorem bracket_pos_iff (below above : K → Bool) (l : List K) (hpos : ∀ t ∈ l, 0 < t) :
    ((bracket below above l (-1) (-1)).1 > 0 ∧ (bracket below above l (-1) (-1)).2 > 0) ↔
      ∃ u d, l.find? below = some u ∧ l.find? above = some d ∧
        bracket below above l (-1) (-1) = (u, d) := by
  rw [bracket_first below above l hpos]
  have hm1 : ¬((0 : K) < -1) := by norm_num
  constructor
  · intro h
    cases hu : l.find? below with
    | none => rw [hu] at h; simp at h; exact absurd h.1 (by linarith)
    | some u =>
      cases hd : l.find? above with
      | none => rw [hd] at h; simp at h; exact absurd h.2 (by linarith)
      | some d => exact ⟨u, d, rfl, rfl, by simp⟩
  · rintro ⟨u, d, hu, hd, -⟩
    rw [hu, hd]
    exact ⟨hpos u (List.mem_of_find?_eq_some hu), hpos d (List.mem_of_find?_eq_some hd)⟩

/-! ### The bisection -/

theorem mid_mem (a b : K) : (a + b) / 2 ∈ Set.uIcc a b := by
  rcases le_total a b with h | h
  · rw [Set.uIcc_of_le h]; constructor <;> linarith
  · rw [Set.uIcc_of_ge h]; constructor <;> linarith

theorem uIcc_mid_left (a b : K) : Set.uIcc ((a + b) / 2) b ⊆ Set.uIcc a b :=
  Set.uIcc_subset_uIcc (mid_mem a b) Set.right_mem_uIcc

theorem uIcc_mid_right (a b : K) : Set.uIcc a ((a + b) / 2) ⊆ Set.uIcc a b :=
  Set.uIcc_subset_uIcc Set.left_mem_uIcc (mid_mem a b)

theorem halve_sound (below : K → Bool) : ∀ (n : Nat) (up down m : K), below up = true →
    below down = false → halve below n up down = some m →
    Crossing below (1 / 10 ^ 10) up down m := by
  intro n
  induction n with
  | zero => intro up down m _ _ h; simp [halve] at h
  | succ n ih =>
    intro up down m hu hd h
    rw [halve] at h
    cases hm : below ((up + down) / 2) with
    | true =>
      simp only [hm, if_true] at h
      split at h
      · rename_i hlt
        cases h
        exact ⟨_, _, mid_mem _ _, Set.right_mem_uIcc, hm, hd, hlt, Or.inl rfl⟩
      · obtain ⟨u, d, h1, h2, h3⟩ := ih _ _ _ hm hd h
        exact ⟨u, d, uIcc_mid_left _ _ h1, uIcc_mid_left _ _ h2, h3⟩
    | false =>
      simp only [hm, Bool.false_eq_true, if_false] at h
      split at h
      · rename_i hlt
        cases h
        exact ⟨_, _, Set.left_mem_uIcc, mid_mem _ _, hu, hm, hlt, Or.inr rfl⟩
      · obtain ⟨u, d, h1, h2, h3⟩ := ih _ _ _ hu hm h
        exact ⟨u, d, uIcc_mid_right _ _ h1, uIcc_mid_right _ _ h2, h3⟩

theorem ratio_lt {u d b w ε : K} (hb : 0 < b) (hd : b ≤ d) (hw : |u - d| ≤ w) (h : w < ε * b) :
    |u / d - 1| < ε := by
  have hd0 : 0 < d := lt_of_lt_of_le hb hd
  have hε : 0 < ε := by
    have h0 := abs_nonneg (u - d)
    by_contra hc
    have := mul_nonpos_of_nonpos_of_nonneg (not_lt.1 hc) hb.le
    linarith
  rw [show u / d - 1 = (u - d) / d by field_simp, abs_div, abs_of_pos hd0, div_lt_iff₀ hd0]
  have := mul_le_mul_of_nonneg_left hd hε.le
  linarith

theorem halve_complete (below : K → Bool) (b : K) (hb : 0 < b) : ∀ (n : Nat) (up down : K), b ≤ up →
    b ≤ down → 0 < n → |up - down| < 2 ^ n * (b / 10 ^ 10) →
    ∃ m, halve below n up down = some m := by
  intro n
  induction n with
  | zero => intro _ _ _ _ h; omega
  | succ n ih =>
    intro up down hu hd _ hw
    have hm : b ≤ (up + down) / 2 := by linarith
    have w1 : |(up + down) / 2 - down| = |up - down| / 2 := by
      rw [show (up + down) / 2 - down = (up - down) / 2 by ring, abs_div, abs_two]
    have w2 : |up - (up + down) / 2| = |up - down| / 2 := by
      rw [show up - (up + down) / 2 = (up - down) / 2 by ring, abs_div, abs_two]
    have hw' : |up - down| / 2 < 2 ^ n * (b / 10 ^ 10) := by
      rw [pow_succ] at hw; linarith
    have main : ∀ u d : K, b ≤ u → b ≤ d → |u - d| = |up - down| / 2 → ∀ m : K,
        ∃ m', (if |u / d - 1| < 1 / 10 ^ 10 then some m else halve below n u d) = some m' := by
      intro u d hu hd hwd m
      by_cases hn : n = 0
      · subst hn
        rw [if_pos]
        · exact ⟨m, rfl⟩
        · refine ratio_lt hb hd (le_of_eq hwd) ?_
          simp at hw' ⊢
          linarith
      · split
        · exact ⟨m, rfl⟩
        · exact ih u d hu hd (Nat.pos_of_ne_zero hn) (by rw [hwd]; exact hw')
    rw [halve]
    cases hbm : below ((up + down) / 2) with
    | true => simp only [if_true]; exact main _ _ hm hd w1 _
    | false =>
      simp only [Bool.false_eq_true, if_false]
      exact main _ _ hu hm w2 _

/-! ### C26 -/

/-- A nucleation search that finds something: the condition is met at the first of the temperatures
`u₀` and exceeded at `d₀`, and the result lies between the two at a place where the condition changes
over a relative distance of less than 1e-10. -/
theorem nuclSearch_sound (below above : K → Bool) (hx : ∀ t, above t = true → below t = false)
    (temps : List K) (hpos : ∀ t ∈ temps, 0 < t) (m : K)
    (h : nuclSearch below above temps = some m) :
    ∃ u₀ d₀, temps.find? below = some u₀ ∧ temps.find? above = some d₀ ∧
      Crossing below (1 / 10 ^ 10) u₀ d₀ m := by
  rw [nuclSearch] at h
  split at h
  · rename_i hb
    obtain ⟨u, d, h1, h2, h3⟩ := (bracket_pos_iff below above temps hpos).1 hb
    rw [h3] at h
    exact ⟨u, d, h1, h2, halve_sound below 50 u d m (List.find?_some h1)
      (hx _ (List.find?_some h2)) h⟩
  · cases h

theorem nuclSearch_iff (below above : K → Bool) (temps : List K) (lo : K) (hlo : 0 < lo)
    (hr : ∀ t ∈ temps, lo ≤ t ∧ t ≤ 100000 * lo) :
    (∃ m, nuclSearch below above temps = some m) ↔
      (∃ t ∈ temps, below t = true) ∧ ∃ t ∈ temps, above t = true := by
  have hpos : ∀ t ∈ temps, 0 < t := fun t ht => lt_of_lt_of_le hlo (hr t ht).1
  rw [nuclSearch]
  constructor
  · rintro ⟨m, h⟩
    split at h
    · rename_i hb
      obtain ⟨u, d, h1, h2, -⟩ := (bracket_pos_iff below above temps hpos).1 hb
      exact ⟨⟨u, List.mem_of_find?_eq_some h1, List.find?_some h1⟩,
        ⟨d, List.mem_of_find?_eq_some h2, List.find?_some h2⟩⟩
    · cases h
  · rintro ⟨⟨u, hu, hbu⟩, d, hd, hbd⟩
    have h1 : ∃ u, temps.find? below = some u := by
      rw [← Option.isSome_iff_exists, List.find?_isSome]; exact ⟨u, hu, hbu⟩
    have h2 : ∃ d, temps.find? above = some d := by
      rw [← Option.isSome_iff_exists, List.find?_isSome]; exact ⟨d, hd, hbd⟩
    obtain ⟨u, h1⟩ := h1
    obtain ⟨d, h2⟩ := h2
    have he := bracket_first below above temps hpos
    rw [h1, h2] at he
    simp only [Option.getD_some] at he
    have hu' := hr u (List.mem_of_find?_eq_some h1)
    have hd' := hr d (List.mem_of_find?_eq_some h2)
    rw [he, if_pos ⟨lt_of_lt_of_le hlo hu'.1, lt_of_lt_of_le hlo hd'.1⟩]
    refine halve_complete below lo hlo 50 u d hu'.1 hd'.1 (by norm_num) ?_
    have : |u - d| ≤ 99999 * lo := by
      rw [abs_le]; constructor <;> linarith
    have h3 : (99999 : K) * lo < 2 ^ 50 * (lo / 10 ^ 10) := by
      rw [show (2 : K) ^ 50 * (lo / 10 ^ 10) = (2 ^ 50 / 10 ^ 10) * lo by ring]
      apply mul_lt_mul_of_pos_right _ hlo
      norm_num
    linarith

theorem not_below_of_above (f : K → Flt K) (c t : K) (h : (f t).gt (.fin c) = true) :
    (f t).lt (.fin c) = false := by
  cases hf : f t with
  | nan => rfl
  | fin a =>
    rw [hf] at h
    simp only [Flt.gt_fin] at h
    simp only [Flt.lt, decide_eq_false_iff_not]
    exact not_lt.2 h.le

/-- **C26** The nucleation temperature: nothing changes without a successful bounce calculation;
otherwise the status is "success" or "not met".  On success the temperature lies between the highest
temperatures `u₀`, `d₀` of the list with a rate below and above the fourth power of the Hubble rate, at
a place where the comparison changes within a relative distance of 1e-10; otherwise the stored
temperature is not touched. -/
theorem C26_nucleation (status : GWStatus) (sols : List K) (rate : K → Flt K) (old : Temp K)
    (hpos : ∀ t ∈ sols, 0 < t) :
    (status ≠ .success → nucleation status sols rate old = old) ∧
    (status = .success →
      let r := nucleation status sols rate old
      (r.status = .success ∧ ∃ u₀ d₀,
        sols.reverse.find? (fun t => (rate t).lt (.fin 1)) = some u₀ ∧
        sols.reverse.find? (fun t => (rate t).gt (.fin 1)) = some d₀ ∧
        Crossing (fun t => (rate t).lt (.fin 1)) (1 / 10 ^ 10) u₀ d₀ r.T) ∨
      (r.status = .notMet ∧ r.T = old.T)) := by
  constructor
  · intro h; rw [nucleation, if_neg h]
  · intro h
    rw [nucleation, if_pos h]
    cases hs : nuclSearch (fun t => (rate t).lt (.fin 1)) (fun t => (rate t).gt (.fin 1))
        sols.reverse with
    | none => exact Or.inr ⟨rfl, rfl⟩
    | some m =>
      exact Or.inl ⟨rfl, nuclSearch_sound _ _ (fun t => not_below_of_above rate 1 t) _
        (by simpa using hpos) m hs⟩

/-- **C26** For solutions within a factor 100000 of each other, the nucleation temperature is found iff
the rate is below the fourth power of the Hubble rate at one solution and above it at another. -/
theorem C26_nucleation_iff (sols : List K) (rate : K → Flt K) (old : Temp K) (lo : K) (hlo : 0 < lo)
    (hr : ∀ t ∈ sols, lo ≤ t ∧ t ≤ 100000 * lo) :
    (nucleation .success sols rate old).status = .success ↔
      (∃ t ∈ sols, (rate t).lt (.fin 1) = true) ∧ ∃ t ∈ sols, (rate t).gt (.fin 1) = true := by
  have := nuclSearch_iff (fun t => (rate t).lt (.fin 1)) (fun t => (rate t).gt (.fin 1)) sols.reverse
    lo hlo (by simpa using hr)
  simp only [List.mem_reverse] at this
  rw [← this, nucleation, if_pos rfl]
  cases hs : nuclSearch (fun t => (rate t).lt (.fin 1)) (fun t => (rate t).gt (.fin 1))
      sols.reverse with
  | none => simp
  | some m => simp

/-- **C26** The approximate nucleation temperature, where the action over temperature passes 140. -/
theorem C26_approximate (status : GWStatus) (sols : List K) (ratio : K → Flt K) (old : Temp K)
    (hpos : ∀ t ∈ sols, 0 < t) :
    (status ≠ .success → nucleationApprox status sols ratio old = old) ∧
    (status = .success →
      let r := nucleationApprox status sols ratio old
      (r.status = .success ∧ ∃ u₀ d₀,
        sols.reverse.find? (fun t => (ratio t).lt (.fin 140)) = some u₀ ∧
        sols.reverse.find? (fun t => (ratio t).gt (.fin 140)) = some d₀ ∧
        Crossing (fun t => (ratio t).lt (.fin 140)) (1 / 10 ^ 10) u₀ d₀ r.T) ∨
      (r.status = .notMet ∧ r.T = old.T)) := by
  constructor
  · intro h; rw [nucleationApprox, if_neg h]
  · intro h
    rw [nucleationApprox, if_pos h]
    cases hs : nuclSearch (fun t => (ratio t).lt (.fin 140)) (fun t => (ratio t).gt (.fin 140))
        sols.reverse with
    | none => exact Or.inr ⟨rfl, rfl⟩
    | some m =>
      exact Or.inl ⟨rfl, nuclSearch_sound _ _ (fun t => not_below_of_above ratio 140 t) _
        (by simpa using hpos) m hs⟩

/-- **C26** For solutions within a factor 100000 of each other, the approximate nucleation temperature
is found iff the action over temperature is below 140 at one solution and above it at another. -/
theorem C26_approximate_iff (sols : List K) (ratio : K → Flt K) (old : Temp K) (lo : K) (hlo : 0 < lo)
    (hr : ∀ t ∈ sols, lo ≤ t ∧ t ≤ 100000 * lo) :
    (nucleationApprox .success sols ratio old).status = .success ↔
      (∃ t ∈ sols, (ratio t).lt (.fin 140) = true) ∧ ∃ t ∈ sols, (ratio t).gt (.fin 140) = true := by
  have := nuclSearch_iff (fun t => (ratio t).lt (.fin 140)) (fun t => (ratio t).gt (.fin 140))
    sols.reverse lo hlo (by simpa using hr)
  simp only [List.mem_reverse] at this
  rw [← this, nucleationApprox, if_pos rfl]
  cases hs : nuclSearch (fun t => (ratio t).lt (.fin 140)) (fun t => (ratio t).gt (.fin 140))
      sols.reverse with
  | none => simp
  | some m => simp

example : (nucleationApprox .success [50, 60, 70, (80 : ℚ)] (fun t => .fin (5 * (t - 45))) ⟨.notSet, -1⟩).status
    = .success := by decide +kernel

example : ∀ t ∈ [50, 60, 70, (80 : ℚ)], (50 : ℚ) ≤ t ∧ t ≤ 100000 * 50 := by decide +kernel

/-! ### C27: the temperature at a given false-vacuum fraction -/

/-- Two numbers agree up to the relative tolerance `rel`, or both are smaller than 1e-10. -/
def Near (rel x y : K) : Prop :=
  (|x| < 1 / 10 ^ 10 ∧ |y| < 1 / 10 ^ 10) ∨ |x - y| < |x + y| / 2 * rel

/-- An accepted temperature: the fraction is met to a part in a thousand and the integral passes the
goal within a relative distance of 1e-8. -/
def Accepted (I : K → Flt K) (goal a b m : K) : Prop :=
  Crossing (fun t => (I t).lt (.fin goal)) (1 / 10 ^ 8) a b m ∧
    ∃ x, I m = .fin x ∧ Near (1 / 10 ^ 3) goal x

theorem almostSameF_iff (goal : K) (b : Flt K) (rel : K) :
    almostSameF goal b rel = true ↔ ∃ x, b = .fin x ∧ Near rel goal x := by
  cases b with
  | nan => simp [almostSameF]
  | fin x =>
    unfold almostSameF almostSame
    dsimp only
    constructor
    · intro h
      refine ⟨x, rfl, ?_⟩
      split at h
      · rename_i h0; exact Or.inl h0
      · exact Or.inr (of_decide_eq_true h)
    · rintro ⟨y, hy, h⟩
      cases hy
      split
      · rfl
      · rename_i h0
        exact decide_eq_true (h.resolve_left h0)

theorem fracLoop_stop (I : K → Flt K) (goal : K) (fuel : Nat) (up down : K) (cur : Flt K)
    (h : ¬(|up / down - 1| > 1 / 10 ^ 8 * (1 / 10 ^ 4) ∧
      almostSameF goal cur (1 / 10 ^ 3 * (1 / 10 ^ 4)) = false)) :
    fracLoop I goal (fuel + 1) up down cur = some (-1) := by
  rw [fracLoop, if_neg h]

theorem fracLoop_below (I : K → Flt K) (goal : K) (fuel : Nat) (up down : K) (cur : Flt K)
    (h : |up / down - 1| > 1 / 10 ^ 8 * (1 / 10 ^ 4) ∧
      almostSameF goal cur (1 / 10 ^ 3 * (1 / 10 ^ 4)) = false)
    (hm : (I ((up + down) / 2)).lt (.fin goal) = true) :
    fracLoop I goal (fuel + 1) up down cur =
      if |(up + down) / 2 / down - 1| < 1 / 10 ^ 8 ∧
          almostSameF goal (I ((up + down) / 2)) (1 / 10 ^ 3) = true then some ((up + down) / 2)
      else fracLoop I goal fuel ((up + down) / 2) down (I ((up + down) / 2)) := by
  rw [fracLoop, if_pos h]
  simp only [hm, if_true]

theorem fracLoop_above (I : K → Flt K) (goal : K) (fuel : Nat) (up down : K) (cur : Flt K)
    (h : |up / down - 1| > 1 / 10 ^ 8 * (1 / 10 ^ 4) ∧
      almostSameF goal cur (1 / 10 ^ 3 * (1 / 10 ^ 4)) = false)
    (hm : (I ((up + down) / 2)).lt (.fin goal) = false) :
    fracLoop I goal (fuel + 1) up down cur =
      if |up / ((up + down) / 2) - 1| < 1 / 10 ^ 8 ∧
          almostSameF goal (I ((up + down) / 2)) (1 / 10 ^ 3) = true then some ((up + down) / 2)
      else fracLoop I goal fuel up ((up + down) / 2) (I ((up + down) / 2)) := by
  rw [fracLoop, if_pos h]
  simp only [hm, Bool.false_eq_true, if_false]

theorem fracLoop_sound (I : K → Flt K) (goal : K) : ∀ (fuel : Nat) (up down : K) (cur : Flt K) (m : K),
    (I up).lt (.fin goal) = true → (I down).lt (.fin goal) = false →
    fracLoop I goal fuel up down cur = some m → m = -1 ∨ Accepted I goal up down m := by
  intro fuel
  induction fuel with
  | zero => intro _ _ _ _ _ _ h; simp [fracLoop] at h
  | succ fuel ih =>
    intro up down cur m hu hd h
    by_cases hc : |up / down - 1| > 1 / 10 ^ 8 * (1 / 10 ^ 4) ∧
      almostSameF goal cur (1 / 10 ^ 3 * (1 / 10 ^ 4)) = false
    swap
    · rw [fracLoop_stop I goal fuel up down cur hc] at h
      left; simpa using h.symm
    cases hm : (I ((up + down) / 2)).lt (.fin goal) with
    | true =>
      rw [fracLoop_below I goal fuel up down cur hc hm] at h
      split at h
      · rename_i hlt
        cases h
        exact Or.inr ⟨⟨_, _, mid_mem _ _, Set.right_mem_uIcc, hm, hd, hlt.1, Or.inl rfl⟩, (almostSameF_iff _ _ _).1 hlt.2⟩
      · rcases ih _ _ _ _ hm hd h with h | ⟨⟨u, d, h1, h2, h3⟩, h4⟩
        · exact Or.inl h
        · exact Or.inr ⟨⟨u, d, uIcc_mid_left _ _ h1, uIcc_mid_left _ _ h2, h3⟩, h4⟩
    | false =>
      rw [fracLoop_above I goal fuel up down cur hc hm] at h
      split at h
      · rename_i hlt
        cases h
        exact Or.inr ⟨⟨_, _, Set.left_mem_uIcc, mid_mem _ _, hu, hm, hlt.1, Or.inr rfl⟩, (almostSameF_iff _ _ _).1 hlt.2⟩
      · rcases ih _ _ _ _ hu hm h with h | ⟨⟨u, d, h1, h2, h3⟩, h4⟩
        · exact Or.inl h
        · exact Or.inr ⟨⟨u, d, uIcc_mid_right _ _ h1, uIcc_mid_right _ _ h2, h3⟩, h4⟩

theorem fracLoop_mono (I : K → Flt K) (goal : K) : ∀ (fuel : Nat) (up down : K) (cur : Flt K) (r : K),
    fracLoop I goal fuel up down cur = some r → fracLoop I goal (fuel + 1) up down cur = some r := by
  intro fuel
  induction fuel with
  | zero => intro _ _ _ _ h; simp [fracLoop] at h
  | succ fuel ih =>
    intro up down cur r h
    by_cases hc : |up / down - 1| > 1 / 10 ^ 8 * (1 / 10 ^ 4) ∧
      almostSameF goal cur (1 / 10 ^ 3 * (1 / 10 ^ 4)) = false
    swap
    · rw [fracLoop_stop I goal _ up down cur hc] at h ⊢
      exact h
    cases hm : (I ((up + down) / 2)).lt (.fin goal) with
    | true =>
      rw [fracLoop_below I goal _ up down cur hc hm] at h ⊢
      split
      · rename_i h2; rw [if_pos h2] at h; exact h
      · rename_i h2; rw [if_neg h2] at h; exact ih _ _ _ _ h
    | false =>
      rw [fracLoop_above I goal _ up down cur hc hm] at h ⊢
      split
      · rename_i h2; rw [if_pos h2] at h; exact h
      · rename_i h2; rw [if_neg h2] at h; exact ih _ _ _ _ h

theorem fracLoop_ends [Archimedean K] (I : K → Flt K) (goal up down : K) (cur : Flt K)
    (hu : 0 < up) (hd : 0 < down) :
    ∃ N r, ∀ fuel ≥ N, fracLoop I goal fuel up down cur = some r := by
  have key : ∀ (b : K), 0 < b → ∀ (n : Nat) (up down : K) (cur : Flt K), b ≤ up → b ≤ down →
      |up - down| < 2 ^ n * (b / 10 ^ 12) → ∃ r, fracLoop I goal (n + 1) up down cur = some r := by
    intro b hb n
    induction n with
    | zero =>
      intro up down cur hu hd hw
      rw [fracLoop, if_neg]
      · exact ⟨_, rfl⟩
      · rintro ⟨h, -⟩
        have := ratio_lt (u := up) hb hd (le_refl _) (ε := 1 / 10 ^ 12) (by
          rw [pow_zero, one_mul] at hw; linarith)
        rw [show (1 : K) / 10 ^ 8 * (1 / 10 ^ 4) = 1 / 10 ^ 12 by norm_num] at h
        linarith
    | succ n ih =>
      intro up down cur hu hd hw
      have hm : b ≤ (up + down) / 2 := by linarith
      have w1 : |(up + down) / 2 - down| = |up - down| / 2 := by
        rw [show (up + down) / 2 - down = (up - down) / 2 by ring, abs_div, abs_two]
      have w2 : |up - (up + down) / 2| = |up - down| / 2 := by
        rw [show up - (up + down) / 2 = (up - down) / 2 by ring, abs_div, abs_two]
      have hw' : |up - down| / 2 < 2 ^ n * (b / 10 ^ 12) := by
        rw [pow_succ] at hw; linarith
      by_cases hc : |up / down - 1| > 1 / 10 ^ 8 * (1 / 10 ^ 4) ∧
        almostSameF goal cur (1 / 10 ^ 3 * (1 / 10 ^ 4)) = false
      swap
      · exact ⟨_, fracLoop_stop I goal _ up down cur hc⟩
      cases hi : (I ((up + down) / 2)).lt (.fin goal) with
      | true =>
        rw [fracLoop_below I goal _ up down cur hc hi]
        split
        · exact ⟨_, rfl⟩
        · exact ih _ _ _ hm hd (by rw [w1]; exact hw')
      | false =>
        rw [fracLoop_above I goal _ up down cur hc hi]
        split
        · exact ⟨_, rfl⟩
        · exact ih _ _ _ hu hm (by rw [w2]; exact hw')
  set b := min up down
  have hb : 0 < b := lt_min hu hd
  obtain ⟨n, hn⟩ := pow_unbounded_of_one_lt (|up - down| / (b / 10 ^ 12)) (one_lt_two : (1 : K) < 2)
  rw [div_lt_iff₀ (by positivity)] at hn
  obtain ⟨r, hr⟩ := key b hb n up down cur (min_le_left _ _) (min_le_right _ _) hn
  refine ⟨n + 1, r, fun fuel hf => ?_⟩
  obtain ⟨m, rfl⟩ : ∃ m, fuel = n + 1 + m := ⟨fuel - (n + 1), by omega⟩
  clear hf
  induction m with
  | zero => exact hr
  | succ m ih => exact fracLoop_mono I goal _ _ _ _ _ ih

/-- **C27** The search for the temperature at a given false-vacuum fraction always ends, whatever the
integral yields. -/
theorem C27_search_ends [Archimedean K] (I : K → Flt K) (goal : K) (sols : List K) :
    ∃ N r, ∀ fuel ≥ N, tempAtFraction I goal fuel sols = some r := by
  unfold tempAtFraction
  dsimp only
  by_cases h : (bracket (fun t => (I t).lt (.fin goal)) (fun t => (I t).gt (.fin goal)) sols.reverse
      (-1) (-1)).1 > 0 ∧ (bracket (fun t => (I t).lt (.fin goal)) (fun t => (I t).gt (.fin goal))
      sols.reverse (-1) (-1)).2 > 0
  · obtain ⟨N, r, hN⟩ := fracLoop_ends I goal _ _
      (I (((bracket (fun t => (I t).lt (.fin goal)) (fun t => (I t).gt (.fin goal)) sols.reverse
        (-1) (-1)).1 + (bracket (fun t => (I t).lt (.fin goal)) (fun t => (I t).gt (.fin goal))
        sols.reverse (-1) (-1)).2) / 2)) h.1 h.2
    refine ⟨N, r, fun fuel hf => ?_⟩
    rw [if_pos h]
    exact hN fuel hf
  · refine ⟨0, -1, fun fuel _ => ?_⟩
    rw [if_neg h]

/-- **C27** The search returns the marker -1 or a temperature at which the fraction is met to a part in
a thousand, between the highest temperatures of the list on either side of the goal. -/
theorem C27_search_result (I : K → Flt K) (goal : K) (fuel : Nat) (sols : List K)
    (hpos : ∀ t ∈ sols, 0 < t) (m : K) (h : tempAtFraction I goal fuel sols = some m) :
    m = -1 ∨ ∃ u₀ d₀, sols.reverse.find? (fun t => (I t).lt (.fin goal)) = some u₀ ∧
      sols.reverse.find? (fun t => (I t).gt (.fin goal)) = some d₀ ∧ Accepted I goal u₀ d₀ m := by
  unfold tempAtFraction at h
  dsimp only at h
  split at h
  · rename_i hb
    obtain ⟨u, d, h1, h2, h3⟩ := (bracket_pos_iff _ _ sols.reverse (by simpa using hpos)).1 hb
    rw [h3] at h
    have hu := List.find?_some h1
    have hd := List.find?_some h2
    rcases fracLoop_sound I goal fuel u d _ m hu (not_below_of_above I goal d hd) h with h | h
    · exact Or.inl h
    · exact Or.inr ⟨u, d, h1, h2, h⟩
  · left; simpa using h.symm

/-- Accepted temperatures are positive, so they are never confused with the marker. -/
theorem Accepted.pos {I : K → Flt K} {goal a b m : K} (h : Accepted I goal a b m) (ha : 0 < a)
    (hb : 0 < b) : 0 < m := by
  obtain ⟨⟨u, d, hu, hd, -, -, -, hm⟩, -⟩ := h
  have hlow : 0 < min a b := lt_min ha hb
  rcases hm with rfl | rfl
  · exact lt_of_lt_of_le hlow hu.1
  · exact lt_of_lt_of_le hlow hd.1

/-- **C27** (failure) If the integral at the first midpoint agrees with the goal to better than 1e-7,
the search gives up: the exact hit is reported as a failure. -/
theorem C27_exact_hit_fails (I : K → Flt K) (goal : K) (fuel : Nat) (sols : List K)
    (hpos : ∀ t ∈ sols, 0 < t) (u d : K)
    (hu : sols.reverse.find? (fun t => (I t).lt (.fin goal)) = some u)
    (hd : sols.reverse.find? (fun t => (I t).gt (.fin goal)) = some d)
    (x : K) (hI : I ((u + d) / 2) = .fin x) (hhit : Near (1 / 10 ^ 7) goal x) :
    tempAtFraction I goal (fuel + 1) sols = some (-1) := by
  have hpos' : ∀ t ∈ sols.reverse, 0 < t := by simpa using hpos
  have hb := (bracket_pos_iff _ _ sols.reverse hpos').2 ⟨u, d, hu, hd, by
    rw [bracket_first _ _ _ hpos', hu, hd]; rfl⟩
  unfold tempAtFraction
  dsimp only
  rw [if_pos hb, bracket_first _ _ _ hpos', hu, hd]
  dsimp only [Option.getD_some]
  rw [fracLoop, if_neg]
  rintro ⟨-, h⟩
  rw [show (1 : K) / 10 ^ 3 * (1 / 10 ^ 4) = 1 / 10 ^ 7 by norm_num,
    (almostSameF_iff _ _ _).2 ⟨x, hI, hhit⟩] at h
  cases h

/-- **C27** (failure) For an integral that varies slowly with the temperature – less than four times
its goal over a relative change of one – the search never accepts a temperature: it stops because the
goal is met to 1e-7 before the temperatures agree to 1e-8, and reports a failure. -/
theorem C27_slow_fails (I : K → Flt K) (f : K → K) (hI : ∀ t, I t = .fin (f t)) (goal c T : K)
    (hg : 0 < goal) (hc : 0 ≤ c) (hT : c * T ≤ 4 * goal)
    (hlip : ∀ s t, |f s - f t| ≤ c * |s - t|) (fuel : Nat) (up down : K) (cur : Flt K) (r : K)
    (hu0 : 0 < up) (hd0 : 0 < down) (hu : up ≤ T) (hd : down ≤ T)
    (hup : f up < goal) (hdown : goal ≤ f down)
    (hcur : ∃ x ∈ Set.uIcc up down, cur = .fin (f x))
    (h : fracLoop I goal fuel up down cur = some r) : r = -1 := by
  have reject : ∀ (up down x u d : K), 0 < up → 0 < down → up ≤ T → down ≤ T → f up < goal →
      goal ≤ f down → x ∈ Set.uIcc up down →
      0 < d → d ≤ T → |u - d| = |up - down| / 2 → |u / d - 1| < 1 / 10 ^ 8 →
      almostSameF goal (.fin (f x)) (1 / 10 ^ 3 * (1 / 10 ^ 4)) = false → False := by
    intro up down x u d _ _ hu hd hup hdown hx hd0 hdT hw hlt hns
    have hw2 : |up - down| < 2 / 10 ^ 8 * d := by
      rw [show u / d - 1 = (u - d) / d by field_simp, abs_div, abs_of_pos hd0, div_lt_iff₀ hd0, hw]
        at hlt
      linarith
    have hx1 : |x - up| ≤ |up - down| := by
      rw [abs_sub_comm up down]
      exact Set.abs_sub_left_of_mem_uIcc hx
    have hx2 : |x - down| ≤ |up - down| := by
      rw [abs_sub_comm x down, abs_sub_comm up down]
      exact Set.abs_sub_right_of_mem_uIcc hx
    have b1 := (abs_le.1 (hlip x up)).2
    have b2 := (abs_le.1 (hlip x down)).1
    have m1 := mul_le_mul_of_nonneg_left hx1 hc
    have m2 := mul_le_mul_of_nonneg_left hx2 hc
    have m3 : c * |up - down| ≤ c * (2 / 10 ^ 8 * d) := mul_le_mul_of_nonneg_left hw2.le hc
    have m4 : c * d ≤ c * T := mul_le_mul_of_nonneg_left hdT hc
    have hclose : |goal - f x| ≤ 8 / 10 ^ 8 * goal := by
      have : c * (2 / 10 ^ 8 * d) = 2 / 10 ^ 8 * (c * d) := by ring
      rw [abs_le]
      constructor <;> linarith
    rw [almostSameF, almostSame] at hns
    split at hns
    · cases hns
    · simp only [decide_eq_false_iff_not, not_lt] at hns
      have hfx := (abs_le.1 hclose)
      rw [abs_of_pos (by linarith : 0 < goal + f x)] at hns
      linarith [hfx.1, hfx.2]
  induction fuel generalizing up down cur with
  | zero => simp [fracLoop] at h
  | succ fuel ih =>
    obtain ⟨x, hx, rfl⟩ := hcur
    by_cases hcond : |up / down - 1| > 1 / 10 ^ 8 * (1 / 10 ^ 4) ∧
      almostSameF goal (.fin (f x)) (1 / 10 ^ 3 * (1 / 10 ^ 4)) = false
    swap
    · rw [fracLoop_stop I goal _ up down _ hcond] at h
      simpa using h.symm
    have w1 : |(up + down) / 2 - down| = |up - down| / 2 := by
      rw [show (up + down) / 2 - down = (up - down) / 2 by ring, abs_div, abs_two]
    have w2 : |up - (up + down) / 2| = |up - down| / 2 := by
      rw [show up - (up + down) / 2 = (up - down) / 2 by ring, abs_div, abs_two]
    by_cases hm : f ((up + down) / 2) < goal
    · have hm' : (I ((up + down) / 2)).lt (.fin goal) = true := by rw [hI]; simpa using hm
      rw [fracLoop_below I goal _ up down _ hcond hm'] at h
      split at h
      · rename_i hacc
        exact (reject up down x _ _ hu0 hd0 hu hd hup hdown hx hd0 hd w1 hacc.1 hcond.2).elim
      · exact ih _ _ _ (by linarith) hd0 (by linarith) hd hm hdown
          ⟨_, Set.left_mem_uIcc, hI _⟩ h
    · have hm' : (I ((up + down) / 2)).lt (.fin goal) = false := by
        rw [hI]; simpa [Flt.lt] using hm
      rw [fracLoop_above I goal _ up down _ hcond hm'] at h
      split at h
      · rename_i hacc
        exact (reject up down x _ _ hu0 hd0 hu hd hup hdown hx (by linarith) (by linarith) w2 hacc.1
          hcond.2).elim
      · exact ih _ _ _ hu0 (by linarith) hu (by linarith) hup (not_lt.1 hm)
          ⟨_, Set.right_mem_uIcc, hI _⟩ h

/-- A slow integral: `200 - t` around 100. -/
example : ∃ c T : ℚ, 0 ≤ c ∧ c * T ≤ 4 * 100 ∧ (∀ s t : ℚ, |(200 - s) - (200 - t)| ≤ c * |s - t|) ∧
    (50 : ℚ) ≤ T ∧ (149 : ℚ) ≤ T ∧ (200 - 149 : ℚ) < 100 ∧ (100 : ℚ) ≤ 200 - 50 := by
  refine ⟨1, 150, by norm_num, by norm_num, ?_, by norm_num, by norm_num, by norm_num, by norm_num⟩
  intro s t
  rw [show (200 - s) - (200 - t) = t - s by ring, abs_sub_comm, one_mul]

/-! ### The percolation and completion temperatures -/

theorem addMiddle_ends [Archimedean K] (e : Env K W) (hw : e.tm < e.tc) (t : K) (l : List (Sol K W))
    (hs : Spaced (gap e) l) (hi : InWindow e l) :
    ∃ N l', Keeps e l l' ∧ ∀ fuel ≥ N, addMiddle e t fuel 0 l = some l' := by
  obtain ⟨N, hN⟩ := exists_bound e hw
  have key : ∀ (n i : Nat) (l : List (Sol K W)), N ≤ i + n → Spaced (gap e) l → InWindow e l →
      ∃ l', Keeps e l l' ∧ ∀ fuel > n, addMiddle e t fuel i l = some l' := by
    intro n
    induction n with
    | zero =>
      intro i l hi' hs hi
      refine ⟨l, ⟨hs, hi, le_refl _⟩, fun fuel hf => ?_⟩
      obtain ⟨f, rfl⟩ : ∃ f, fuel = f + 1 := ⟨fuel - 1, by omega⟩
      have := hN l hs hi
      rw [addMiddle]
      have h1 : l[i]? = none := List.getElem?_eq_none (by omega)
      rw [h1]
    | succ n ih =>
      intro i l hi' hs hi
      by_cases hlen : i + 1 < l.length
      · have h1 : l[i]? = some l[i] := List.getElem?_eq_getElem _
        have h2 : l[i + 1]? = some l[i + 1] := List.getElem?_eq_getElem _
        by_cases hc : t > l[i].T ∧ t < l[i + 1].T
        · have hk := calcAt_keeps e hw l ((l[i].T + l[i + 1].T) / 2) true hs hi
          obtain ⟨l', hk', hl'⟩ := ih (i + 1) _ (by omega) hk.1 hk.2.1
          refine ⟨l', ⟨hk'.1, hk'.2.1, hk.2.2.trans hk'.2.2⟩, fun fuel hf => ?_⟩
          obtain ⟨f, rfl⟩ : ∃ f, fuel = f + 1 := ⟨fuel - 1, by omega⟩
          rw [addMiddle, h1, h2]
          dsimp only
          rw [if_pos hc]
          exact hl' f (by omega)
        · obtain ⟨l', hk', hl'⟩ := ih (i + 1) l (by omega) hs hi
          refine ⟨l', hk', fun fuel hf => ?_⟩
          obtain ⟨f, rfl⟩ : ∃ f, fuel = f + 1 := ⟨fuel - 1, by omega⟩
          rw [addMiddle, h1, h2]
          dsimp only
          rw [if_neg hc]
          exact hl' f (by omega)
      · refine ⟨l, ⟨hs, hi, le_refl _⟩, fun fuel hf => ?_⟩
        obtain ⟨f, rfl⟩ : ∃ f, fuel = f + 1 := ⟨fuel - 1, by omega⟩
        rw [addMiddle]
        have h2 : l[i + 1]? = none := List.getElem?_eq_none (by omega)
        rw [h2]
        cases l[i]? <;> rfl
  obtain ⟨l', hk, hl'⟩ := key N 0 l (by omega) hs hi
  exact ⟨N + 1, l', hk, fun fuel hf => hl' fuel (by omega)⟩

/-- **C27** The calculation of the percolation (`refresh = true`) or completion temperature always ends
and keeps the list of actions in order. -/
theorem C27_ends [Archimedean K] (e : Env K W) (hw : e.tm < e.tc) (refresh : Bool)
    (I : List (Sol K W) → List (K × K) → K → Flt K) (goal : K) (s : FracState K W)
    (hs : Spaced (gap e) s.st.sols) (hi : InWindow e s.st.sols) :
    ∃ N s', Keeps e s.st.sols s'.st.sols ∧ ∀ fuel ≥ N, fracTemp e refresh I goal fuel s = some s' := by
  unfold fracTemp
  by_cases hst : s.st.status = .success
  swap
  · exact ⟨0, s, ⟨hs, hi, le_refl _⟩, fun fuel _ => by rw [if_neg hst]⟩
  obtain ⟨N1, t, h1⟩ := C27_search_ends (I s.st.sols s.st.spline) goal (s.st.sols.map Sol.T)
  by_cases hc : t > 0 ∧ s.isSet = false
  · obtain ⟨N2, l', hk, h2⟩ := addMiddle_ends e hw t s.st.sols hs hi
    have hsols : (if refresh then setBounceSol { s.st with sols := l' } else
        { s.st with sols := l' }).sols = l' := by
      cases refresh with
      | true => simp [setBounceSol]; split <;> rfl
      | false => rfl
    generalize hst' : (if refresh then setBounceSol { s.st with sols := l' } else
        { s.st with sols := l' }) = st' at *
    obtain ⟨N3, t', h3⟩ := C27_search_ends (I st'.sols st'.spline) goal (st'.sols.map Sol.T)
    refine ⟨max N1 (max N2 N3), ⟨st', ⟨.success, t'⟩, true⟩, ?_, fun fuel hf => ?_⟩
    · dsimp only; rw [hsols]; exact hk
    · rw [if_pos hst, h1 fuel (le_trans (le_max_left _ _) hf)]
      dsimp only
      rw [if_pos hc, h2 fuel (le_trans (le_trans (le_max_left _ _) (le_max_right _ _)) hf)]
      dsimp only
      rw [hst', h3 fuel (le_trans (le_trans (le_max_right _ _) (le_max_right _ _)) hf)]
  · by_cases ht : t < 0
    · refine ⟨N1, { s with temp := ⟨.notMet, t⟩ }, ⟨hs, hi, le_refl _⟩, fun fuel hf => ?_⟩
      rw [if_pos hst, h1 fuel hf]
      dsimp only
      rw [if_neg hc, if_pos ht]
    · refine ⟨N1, { s with temp := ⟨s.temp.status, t⟩ }, ⟨hs, hi, le_refl _⟩, fun fuel hf => ?_⟩
      rw [if_pos hst, h1 fuel hf]
      dsimp only
      rw [if_neg hc, if_neg ht]

/-- **C27** (partial: the marker is not excluded, see `C27_success_with_marker`) Ends the first
calculation with status success, then a temperature was accepted with the actions known before, and the
stored temperature is either accepted with the actions known now or the failure marker -1.  Without an
accepted temperature the status is "not met" and the marker is stored. -/
theorem C27_status_partial (e : Env K W) (refresh : Bool)
    (I : List (Sol K W) → List (K × K) → K → Flt K) (goal : K) (fuel : Nat) (s s' : FracState K W)
    (hok : s.st.status = .success) (hnew : s.isSet = false)
    (hpos : ∀ x ∈ s.st.sols, 0 < x.T) (hpos' : ∀ x ∈ s'.st.sols, 0 < x.T)
    (h : fracTemp e refresh I goal fuel s = some s') :
    (s'.temp.status = .success ∧ s'.isSet = true ∧
      (∃ t u d, 0 < t ∧ Accepted (I s.st.sols s.st.spline) goal u d t) ∧
      (s'.temp.T = -1 ∨ ∃ u d, Accepted (I s'.st.sols s'.st.spline) goal u d s'.temp.T)) ∨
    (s'.temp.status = .notMet ∧ s'.temp.T = -1 ∧ s'.isSet = false ∧ s'.st = s.st) := by
  have hp : ∀ (l : List (Sol K W)), (∀ x ∈ l, 0 < x.T) → ∀ t ∈ l.map Sol.T, 0 < t := by
    intro l hl t ht
    obtain ⟨x, hx, rfl⟩ := List.mem_map.1 ht
    exact hl x hx
  unfold fracTemp at h
  rw [if_pos hok] at h
  split at h
  · cases h
  rename_i t ht
  have hres := C27_search_result _ goal fuel _ (hp _ hpos) t ht
  split at h
  · rename_i hc
    split at h
    · cases h
    rename_i l hl
    dsimp only at h
    split at h
    · cases h
    rename_i t' ht'
    cases h
    left
    refine ⟨rfl, rfl, ?_, ?_⟩
    · rcases hres with h | ⟨u, d, -, -, h⟩
      · rw [h] at hc; exact absurd hc.1 (by norm_num)
      · exact ⟨t, u, d, hc.1, h⟩
    · rcases C27_search_result _ goal fuel _ (hp _ hpos') t' ht' with h | ⟨u, d, -, -, h⟩
      · exact Or.inl h
      · exact Or.inr ⟨u, d, h⟩
  · rename_i hc
    have ht1 : t = -1 := by
      rcases hres with h | ⟨u, d, h1, h2, h3⟩
      · exact h
      · refine absurd ⟨h3.pos ?_ ?_, hnew⟩ hc
        · have := List.mem_of_find?_eq_some h1
          exact hp _ hpos u (by simpa using this)
        · have := List.mem_of_find?_eq_some h2
          exact hp _ hpos d (by simpa using this)
    rw [if_pos (by rw [ht1]; norm_num)] at h
    cases h
    exact Or.inr ⟨rfl, ht1, hnew, rfl⟩

/-- Actions at 50, 60, 70 and 149; every new action is found. -/
def exFracEnv : Env ℚ Unit where
  tm := 40
  tc := 150
  n := 10
  viable := fun _ => true
  straight := fun t => (.fin t, ())
  warped := fun _ t => (.fin t, ())

/-- With four actions the integral passes 100 at 100, with five at 89.75, the first midpoint. -/
def exIntegral (l : List (Sol ℚ Unit)) (_ : List (ℚ × ℚ)) (t : ℚ) : Flt ℚ :=
  .fin (100 + 1000 * ((if l.length = 4 then 100 else 359 / 4) - t))

def exFrac : FracState ℚ Unit :=
  ⟨⟨[⟨50, 50, ()⟩, ⟨60, 60, ()⟩, ⟨70, 70, ()⟩, ⟨149, 149, ()⟩], .success,
    [(50, 50), (60, 60), (70, 70), (149, 149)]⟩, ⟨.notSet, -1⟩, false⟩

/-- **C27** (failure) Status success with the failure marker as temperature: the recalculation with the
added action gives up, but its result is stored and the status is set to success all the same, for the
percolation as for the completion temperature. -/
theorem C27_success_with_marker : ∀ refresh, ∃ s', fracTemp exFracEnv refresh exIntegral 100 100 exFrac =
    some s' ∧ s'.temp.status = .success ∧ s'.temp.T = -1 ∧ s'.isSet = true := by
  have key : ∀ refresh, (match fracTemp exFracEnv refresh exIntegral 100 100 exFrac with
      | some s' => decide (s'.temp.status = .success) && decide (s'.temp.T = -1) && s'.isSet
      | none => false) = true := by decide +kernel
  intro refresh
  have := key refresh
  revert this
  cases fracTemp exFracEnv refresh exIntegral 100 100 exFrac with
  | none => intro h; cases h
  | some s' =>
    intro h
    simp only [Bool.and_eq_true, decide_eq_true_eq] at h
    exact ⟨s', rfl, h.1.1, h.1.2, h.2⟩

/-- The same actions with an integral that does not change: a temperature is accepted. -/
example : ∃ t, tempAtFraction (fun t : ℚ => .fin (100 + 1000 * (100 - t))) 100 100 [50, 60, 70, 149] =
    some t ∧ t ≠ -1 := by
  have : (match tempAtFraction (fun t : ℚ => .fin (100 + 1000 * (100 - t))) 100 100 [50, 60, 70, 149] with
    | some t => decide (t ≠ -1)
    | none => false) = true := by decide +kernel
  revert this
  cases tempAtFraction (fun t : ℚ => .fin (100 + 1000 * (100 - t))) 100 100 [50, 60, 70, 149] with
  | none => intro h; cases h
  | some t => intro h; exact ⟨t, rfl, by simpa using h⟩

example : tempAtFraction (fun t : ℚ => .fin (100 + 1000 * (100 - t))) 100 100 [50, 150] = some (-1) := by
  decide +kernel

/-- **C27** The transition temperature is the requested characteristic temperature if that was
calculated successfully, and -1 otherwise. -/
theorem C27_transition_temp (approx nucl perc compl : Temp K) (which : Int) :
    (∀ t : Temp K, (which = 1 ∧ t = approx ∨ which = 2 ∧ t = nucl ∨ which = 3 ∧ t = perc ∨
        which = 4 ∧ t = compl) →
      transitionTemp approx nucl perc compl which = if t.status = .success then t.T else -1) ∧
    ((which < 1 ∨ 4 < which) → transitionTemp approx nucl perc compl which = -1) := by
  constructor
  · rintro t (⟨rfl, rfl⟩ | ⟨rfl, rfl⟩ | ⟨rfl, rfl⟩ | ⟨rfl, rfl⟩) <;> simp [transitionTemp]
  · intro h
    unfold transitionTemp
    rw [if_neg (by omega), if_neg (by omega), if_neg (by omega), if_neg (by omega)]

/-! ### C28: transition strength -/

theorem converged_self (a : K) (h : a ≠ 0) : converged (.fin a) (.fin a) = true := by
  simp only [converged, Bool.and_eq_true, decide_eq_true_eq]
  refine ⟨h, ?_⟩
  rw [div_self h]
  norm_num

/-- The percolation temperature must have been calculated before. -/
theorem C28_not_set (e : PTEnv K) (fuel : Nat) (s : PTState K) :
    ptStrength e false (fuel + 1) s = some (err .runtime) := by
  simp [ptStrength]

/-- **C28** With a given wall velocity the iteration ends at once, with the strength at the percolation
temperature for this velocity, if that strength is a non-zero number. -/
theorem C28_given_velocity (e : PTEnv K) (fuel : Nat) (s : PTState K) (hu : 0 ≤ s.user) (a : K)
    (ha : e.strength (e.perc (.fin s.user)) = .fin a) (h0 : a ≠ 0) :
    ptStrength e true (fuel + 1) s =
      some (ok ⟨.fin a, .fin s.user, e.perc (.fin s.user), s.user⟩) := by
  have hround : ∀ al t, ptRound e ⟨al, .fin s.user, t, s.user⟩ =
      ⟨.fin a, .fin s.user, e.perc (.fin s.user), s.user⟩ := by
    intro al t
    simp only [ptRound, ha, wallVelocity, ge_iff_le, hu, if_true]
  have hr : ptRounds e 20 { s with vwall := .fin s.user } =
      (true, ⟨.fin a, .fin s.user, e.perc (.fin s.user), s.user⟩) := by
    rw [ptRounds]
    have h1 := hround s.alpha s.tperc
    simp only [h1]
    split
    · rfl
    · rw [ptRounds]
      simp only [hround, converged_self a h0, if_true]
  rw [ptStrength]
  simp only [ge_iff_le, hu, if_true, Bool.true_eq_false, if_false, hr]

/-- The strength is a number and differs from the one before by less than 1e-7, relatively. -/
def Steady (a old : Flt K) : Prop :=
  ∃ x y, a = .fin x ∧ old = .fin y ∧ y ≠ 0 ∧ |x / y - 1| < 1 / 10 ^ 7

/-- What rounds starting from `s₀` that converge leave behind: `s` is the state after the first of at
most `n` rounds in which the strength changed by less than 1e-7, relatively.  The strength belongs to
the percolation temperature, which belongs to the velocity of the round before; the velocity is the one
for this strength. -/
def Consistent (e : PTEnv K) (n : Nat) (s₀ s : PTState K) : Prop :=
  ∃ k < n, ∃ old, old = (ptRound e)^[k] s₀ ∧
    (∀ j < k, ¬ Steady ((ptRound e)^[j + 1] s₀).alpha ((ptRound e)^[j] s₀).alpha) ∧
    Steady s.alpha old.alpha ∧
    s.tperc = e.perc old.vwall ∧ s.alpha = e.strength s.tperc ∧
    (0 ≤ s.user → s.vwall = .fin s.user) ∧
    (s.user = -1 → s.vwall = e.approx s.alpha s.tperc) ∧
    (s.user = -2 → s.vwall = e.upper s.alpha s.tperc) ∧
    (s.user < 0 → s.user ≠ -1 → s.user ≠ -2 → s.vwall = old.vwall) ∧ s.user = s₀.user

theorem converged_iff (a old : Flt K) : converged a old = true ↔ Steady a old := by
  cases a <;> cases old <;> simp [converged, Steady]

theorem ptRound_user (e : PTEnv K) (s : PTState K) : (ptRound e s).user = s.user := rfl

theorem ptRounds_consistent (e : PTEnv K) : ∀ (n : Nat) (s s' : PTState K),
    ptRounds e n s = (true, s') → Consistent e n s s' := by
  intro n
  induction n with
  | zero => intro s s' h; simp [ptRounds] at h
  | succ n ih =>
    intro s s' h
    rw [ptRounds] at h
    by_cases hc : converged (ptRound e s).alpha s.alpha = true
    · rw [if_pos hc] at h
      cases h
      refine ⟨0, by omega, s, rfl, by omega, (converged_iff _ _).1 hc, rfl, rfl, ?_, ?_, ?_, ?_, rfl⟩
      · intro hu
        change wallVelocity e _ = _
        rw [wallVelocity, if_pos (show s.user ≥ 0 from hu)]
        rfl
      · intro hu
        change s.user = -1 at hu
        change wallVelocity e _ = _
        rw [wallVelocity, if_neg (show ¬ s.user ≥ 0 by rw [hu]; norm_num), if_pos hu]
        rfl
      · intro hu
        change s.user = -2 at hu
        change wallVelocity e _ = _
        rw [wallVelocity, if_neg (show ¬ s.user ≥ 0 by rw [hu]; norm_num),
          if_neg (show ¬ s.user = -1 by rw [hu]; norm_num), if_pos hu]
        rfl
      · intro h0 h1 h2
        change s.user ≠ -1 at h1
        change s.user ≠ -2 at h2
        change wallVelocity e _ = _
        rw [wallVelocity, if_neg (show ¬ s.user ≥ 0 from not_le.2 h0), if_neg h1, if_neg h2]
    · rw [if_neg hc] at h
      obtain ⟨k, hk, old, h1, h2, h3, h4, h5, h6, h7⟩ := ih _ _ h
      refine ⟨k + 1, by omega, old, h1, ?_, h3, h4, h5, h6, h7⟩
      intro j hj
      cases j with
      | zero => rw [← converged_iff]; simpa using hc
      | succ j => exact h2 j (by omega)

/-- **C28** (partial: needs a usable strength for the default velocity, see `C28_endless`) If the
strength for the default velocity 0.95 is a non-zero number, the calculation ends after at most two
calls of twenty rounds: either the rounds converged for the requested velocity, or the default velocity
0.95 is used and remembered. -/
theorem C28_ends_partial (e : PTEnv K) (fuel : Nat) (s : PTState K) (a : K)
    (ha : e.strength (e.perc (.fin (95 / 100))) = .fin a) (h0 : a ≠ 0) :
    ∃ s', ptStrength e true (fuel + 2) s = some (ok s') ∧
      (Consistent e 20 { s with vwall := .fin (if s.user ≥ 0 then s.user else 95 / 100) } s' ∨
        s' = ⟨.fin a, .fin (95 / 100), e.perc (.fin (95 / 100)), 95 / 100⟩) := by
  rw [show fuel + 2 = (fuel + 1) + 1 from rfl, ptStrength]
  simp only [Bool.true_eq_false, if_false]
  by_cases hr : (ptRounds e 20
      { s with vwall := .fin (if s.user ≥ 0 then s.user else 95 / 100) }).1 = true
  · rw [if_pos hr]
    refine ⟨_, rfl, Or.inl ?_⟩
    refine ptRounds_consistent e 20 _ _ ?_
    rw [← hr]
  · rw [if_neg hr]
    have h95 : (0 : K) ≤ 95 / 100 := by norm_num
    exact ⟨_, C28_given_velocity e fuel _ h95 a ha h0, Or.inr rfl⟩

/-- No round converges when all strengths are zero or undefined. -/
theorem ptRounds_never (e : PTEnv K) (he : ∀ t, e.strength t = .nan ∨ e.strength t = .fin 0) :
    ∀ (n : Nat) (s : PTState K), (ptRounds e n s).1 = false := by
  have hconv : ∀ (a old : Flt K), (a = .nan ∨ a = .fin 0) → converged a old = false := by
    rintro a old (rfl | rfl)
    · rfl
    · cases old with
      | nan => rfl
      | fin o =>
        simp only [converged, zero_div, zero_sub, abs_neg, abs_one]
        norm_num
  intro n
  induction n with
  | zero => intro s; rfl
  | succ n ih =>
    intro s
    rw [ptRounds]
    rw [if_neg]
    · exact ih _
    · rw [hconv]
      · simp
      · exact he _

/-- **C28** (failure) If the strength is zero or undefined (NaN) at every temperature, the function calls
itself for ever. -/
theorem C28_endless (e : PTEnv K) (he : ∀ t, e.strength t = .nan ∨ e.strength t = .fin 0) :
    ∀ (fuel : Nat) (s : PTState K), ptStrength e true fuel s = none := by
  intro fuel
  induction fuel with
  | zero => intro s; rfl
  | succ fuel ih =>
    intro s
    rw [ptStrength]
    simp only [Bool.true_eq_false, if_false]
    rw [if_neg]
    · exact ih _
    · rw [ptRounds_never e he]; simp

/-- Equal potentials and entropies of the two vacua. -/
example : ∀ t : ℚ, (⟨fun _ => 100, fun _ => .fin 0, fun _ _ => .nan, fun _ _ => .nan⟩ : PTEnv ℚ).strength t
    = .nan ∨ (⟨fun _ => 100, fun _ => .fin 0, fun _ _ => .nan, fun _ _ => .nan⟩ : PTEnv ℚ).strength t
    = .fin 0 := fun _ => Or.inr rfl

/-- A strength that does not depend on the velocity. -/
example : (match ptStrength (⟨fun _ => 100, fun _ => .fin (1 / 10), fun _ _ => .fin (6 / 10),
      fun _ _ => .fin (7 / 10)⟩ : PTEnv ℚ) true 1 ⟨.fin (-1), .fin (95 / 100), 100, -1⟩ with
    | some (.ok s) => decide (s.vwall = .fin (6 / 10)) && decide (s.alpha = .fin (1 / 10))
    | _ => false) = true := by decide +kernel

end Verif.Bounce
