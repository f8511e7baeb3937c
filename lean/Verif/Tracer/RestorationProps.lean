import Verif.Tracer.Restoration
import Verif.Tracer.RestorationSpec
import Mathlib.Analysis.Complex.ExponentialBounds
import Mathlib.Tactic.Linarith
import Mathlib.Tactic.FieldSimp
import Mathlib.Tactic.Positivity

/-!
# C114: the check of the high-temperature behaviour
-/

namespace Verif.Tracer

open Spec

theorem near_iff (a b : ℝ) : near a b ↔ |a - b| < |b| / 10 ^ 6 := by
  unfold near
  by_cases hb : b = 0
  · subst hb
    simp
  · have h : a / b - 1 = (a - b) / b := by field_simp
    rw [h, abs_div, div_lt_iff₀ (abs_pos.2 hb)]
    constructor
    · rintro ⟨-, h⟩
      linarith
    · exact fun h => ⟨hb, by linarith⟩

theorem log_ten : 23 / 10 ≤ Real.log 10 ∧ Real.log 10 < 461 / 200 := by
  constructor
  · rw [Real.le_log_iff_exp_le (by norm_num)]
    have h1 : Real.exp (23 / 10) ^ 10 ≤ 10 ^ 10 := by
      rw [← Real.exp_nat_mul, show ((10 : ℕ) : ℝ) * (23 / 10) = ((23 : ℕ) : ℝ) * 1 by norm_num, Real.exp_nat_mul]
      calc Real.exp 1 ^ 23 ≤ 2.7182818286 ^ 23 := by
            have := Real.exp_one_lt_d9
            have h0 := Real.exp_pos 1
            gcongr
        _ ≤ 10 ^ 10 := by norm_num
    exact le_of_pow_le_pow_left₀ (by norm_num) (by norm_num) h1
  · refine lt_of_lt_of_le ?_ (show (53 / 23 : ℝ) ≤ _ by norm_num)
    rw [Real.log_lt_iff_lt_exp (by norm_num)]
    have h1 : (10 : ℝ) ^ 23 < Real.exp (53 / 23) ^ 23 := by
      rw [← Real.exp_nat_mul, show ((23 : ℕ) : ℝ) * (53 / 23) = ((53 : ℕ) : ℝ) * 1 by norm_num, Real.exp_nat_mul]
      calc (10 : ℝ) ^ 23 < 2.7182818283 ^ 53 := by norm_num
        _ ≤ Real.exp 1 ^ 53 := by
            have := Real.exp_one_gt_d9
            gcongr
    exact lt_of_pow_lt_pow_left₀ 23 (Real.exp_pos _).le h1

theorem log_max : 460 / 20 ≤ Real.log (10 ^ 10) ∧ Real.log (10 ^ 10) < 461 / 20 := by
  rw [Real.log_pow]
  have := log_ten
  constructor <;> push_cast <;> linarith [this.1, this.2]

/-- The value before, with the starting values of the program. -/
noncomputable def before (e : Nat → ℝ) : Nat → ℝ
  | 0 => 10 ^ 100
  | k + 1 => e k

noncomputable def before2 (e : Nat → ℝ) : Nat → ℝ
  | 0 => 10 ^ 200
  | k + 1 => before e k

def Stops (e : Nat → ℝ) (k : Nat) : Prop := near (e k) (before e k) ∧ near (e k) (before2 e k)

theorem settle_from (ev : ℝ → ℝ) (m k fuel : Nat) (hk : k + m = 461) (hf : m + 1 ≤ fuel) :
    (∃ j, k ≤ j ∧ j ≤ 460 ∧ Stops (fun i => ev (temp i)) j ∧ (∀ i, k ≤ i → i < j → ¬ Stops (fun i => ev (temp i)) i) ∧
      settle ev (10 ^ 10) fuel (k / 20) (before (fun i => ev (temp i)) k) (before2 (fun i => ev (temp i)) k) =
        some (some (temp j, ev (temp j)))) ∨
    ((∀ j, k ≤ j → j ≤ 460 → ¬ Stops (fun i => ev (temp i)) j) ∧
      settle ev (10 ^ 10) fuel (k / 20) (before (fun i => ev (temp i)) k) (before2 (fun i => ev (temp i)) k) =
        some none) := by
  have hlog := log_max
  have hne : Real.log (10 ^ 10) ≠ 0 := by
    have := hlog.1
    intro h0
    rw [h0] at this
    norm_num at this
  induction m generalizing k fuel with
  | zero =>
    obtain ⟨fuel, rfl⟩ : ∃ f, fuel = f + 1 := ⟨fuel - 1, by omega⟩
    refine Or.inr ⟨fun j h1 h2 => by omega, ?_⟩
    have hk : k = 461 := by omega
    subst hk
    rw [settle, if_neg]
    push_cast
    exact not_le.2 hlog.2
  | succ m ih =>
    obtain ⟨fuel, rfl⟩ : ∃ f, fuel = f + 1 := ⟨fuel - 1, by omega⟩
    have hle : (k : ℝ) / 20 ≤ Real.log (10 ^ 10) := by
      have : (k : ℝ) ≤ 460 := by exact_mod_cast (by omega : k ≤ 460)
      linarith [hlog.1]
    by_cases hs : Stops (fun i => ev (temp i)) k
    · refine Or.inl ⟨k, le_rfl, by omega, hs, fun i h1 h2 => by omega, ?_⟩
      rw [settle, if_pos hle]
      exact if_pos hs
    · have hstep : (k : ℝ) / 20 + Real.log (10 ^ 10) / (20 * Real.log (10 ^ 10)) = ((k + 1 : ℕ) : ℝ) / 20 := by
        push_cast
        field_simp
      have hrec : settle ev (10 ^ 10) (fuel + 1) (k / 20) (before (fun i => ev (temp i)) k)
          (before2 (fun i => ev (temp i)) k) = settle ev (10 ^ 10) fuel ((k + 1 : ℕ) / 20)
          (before (fun i => ev (temp i)) (k + 1)) (before2 (fun i => ev (temp i)) (k + 1)) := by
        rw [settle, if_pos hle, ← hstep]
        exact if_neg hs
      rw [hrec]
      rcases ih (k + 1) fuel (by omega) (by omega) with ⟨j, h1, h2, h3, h4, h5⟩ | ⟨h1, h2⟩
      · refine Or.inl ⟨j, by omega, h2, h3, fun i hi1 hi2 => ?_, h5⟩
        rcases Nat.eq_or_lt_of_le hi1 with h | h
        · exact h ▸ hs
        · exact h4 i h hi2
      · refine Or.inr ⟨fun j hj1 hj2 => ?_, h2⟩
        rcases Nat.eq_or_lt_of_le hj1 with h | h
        · exact h ▸ hs
        · exact h1 j h hj2

variable {P : Type}

theorem restoration_cases (ev : ℝ → ℝ) (stationary : ℝ → Option P) (ewvev : P → ℝ) {fuel : Nat} (hf : 462 ≤ fuel) :
    (∃ j ≤ 460, Stops (fun i => ev (temp i)) j ∧ (∀ i < j, ¬ Stops (fun i => ev (temp i)) i) ∧
      restoration ev stationary ewvev fuel = some (ewsrOutcome true (ev (temp j)) (stationary (temp j)) ewvev)) ∨
    ((∀ j ≤ 460, ¬ Stops (fun i => ev (temp i)) j) ∧ restoration ev stationary ewvev fuel = some 0) := by
  have h := settle_from ev 461 0 fuel rfl hf
  simp only [Nat.cast_zero, zero_div, before, before2] at h
  unfold restoration
  rcases h with ⟨j, -, h2, h3, h4, h5⟩ | ⟨h1, h2⟩
  · refine Or.inl ⟨j, h2, h3, fun i hi => h4 i (Nat.zero_le _) hi, ?_⟩
    rw [h5]
  · refine Or.inr ⟨fun j hj => h1 j (Nat.zero_le _) hj, ?_⟩
    rw [h2]
    rfl

theorem stops_iff {e : Nat → ℝ} (he : ∀ k, |e k| ≤ 10 ^ 99) (k : Nat) : Stops e k ↔ Settled e k := by
  have big : ∀ (k : Nat) (b : ℝ), 10 ^ 100 ≤ b → ¬ near (e k) b := by
    intro k b hb h
    rw [near_iff, abs_lt, abs_of_pos (lt_of_lt_of_le (by positivity) hb)] at h
    have h1 := he k
    rw [abs_le] at h1
    have : (10 : ℝ) ^ 100 = 10 * 10 ^ 99 := by ring
    have h0 : (0 : ℝ) < 10 ^ 99 := by positivity
    linarith [h.1, h1.2]
  unfold Stops Settled
  match k with
  | 0 => exact ⟨fun h => absurd h.1 (big 0 _ le_rfl), fun h => by omega⟩
  | 1 => exact ⟨fun h => absurd h.2 (big 1 _ le_rfl), fun h => by omega⟩
  | k + 2 =>
    rw [near_iff, near_iff]
    exact ⟨fun h => ⟨by omega, h⟩, fun h => h.2⟩

/-- **C114, what the check does.**  The check goes through the temperatures `e^(k/20)` from 1 GeV to the last one below `1e10`
GeV and stops at the first one where the eigenvalues at three neighbouring temperatures agree to a millionth; the outcome
refers to that temperature.  It is inconclusive when there is none. -/
theorem C114_check (ev : ℝ → ℝ) (stationary : ℝ → Option P) (ewvev : P → ℝ) (he : ∀ T, |ev T| ≤ 10 ^ 99) {fuel : Nat}
    (hf : 462 ≤ fuel) :
    temp 0 = 1 ∧ temp 460 ≤ 10 ^ 10 ∧ 10 ^ 10 < temp 461 ∧
    ((∃ k ≤ 460, Settled (fun i => ev (temp i)) k ∧ (∀ j < k, ¬ Settled (fun i => ev (temp i)) j) ∧
      restoration ev stationary ewvev fuel = some (ewsrOutcome true (ev (temp k)) (stationary (temp k)) ewvev)) ∨
    ((∀ k ≤ 460, ¬ Settled (fun i => ev (temp i)) k) ∧ restoration ev stationary ewvev fuel = some 0)) := by
  refine ⟨by simp [temp], ?_, ?_, ?_⟩
  · have := log_max.1
    rw [Real.le_log_iff_exp_le (by norm_num)] at this
    exact_mod_cast this
  · have := log_max.2
    rw [Real.log_lt_iff_lt_exp (by norm_num)] at this
    exact_mod_cast this
  · have hs := fun k => stops_iff (e := fun i => ev (temp i)) (fun k => he _) k
    rcases restoration_cases ev stationary ewvev hf with ⟨j, h1, h2, h3, h4⟩ | ⟨h1, h2⟩
    · exact Or.inl ⟨j, h1, (hs j).1 h2, fun i hi h => h3 i hi ((hs i).2 h), h4⟩
    · exact Or.inr ⟨fun k hk h => h1 k hk ((hs k).2 h), h2⟩

theorem settled_ne {e : Nat → ℝ} {k : Nat} (h : Settled e k) : e k ≠ 0 := by
  intro h0
  have h1 := h.2.1
  rw [h0, zero_sub, abs_neg] at h1
  have := abs_nonneg (e (k - 1))
  linarith

theorem stops_ne {e : Nat → ℝ} {k : Nat} (h : Stops e k) : e k ≠ 0 := by
  intro h0
  have h1 := h.1
  rw [near_iff, h0, zero_sub, abs_neg] at h1
  have := abs_nonneg (before e k)
  linarith

/-- **C114, a flat direction is never reported.**  The status for a flat region at high temperature belongs to the outcome 1,
and no potential has this outcome. -/
theorem C114_flat_never_reported (ev : ℝ → ℝ) (stationary : ℝ → Option P) (ewvev : P → ℝ) {fuel : Nat} (hf : 462 ≤ fuel) :
    ∃ out, restoration ev stationary ewvev fuel = some out ∧ getStatusEWSR out ≠ .flatRegion ∧ out ∈ [-1, 0, 2, 3] := by
  rcases restoration_cases ev stationary ewvev hf with ⟨j, h1, h2, h3, h4⟩ | ⟨h1, h2⟩
  · refine ⟨_, h4, ?_⟩
    have h0 : ev (temp j) ≠ 0 := stops_ne h2
    unfold ewsrOutcome
    simp only [Bool.not_true, Bool.false_eq_true, if_false, h0]
    split_ifs
    · decide
    · cases stationary (temp j) with
      | none =>
        dsimp only
        decide
      | some p =>
        simp only
        split_ifs <;> decide
  · exact ⟨0, h2, by decide, by decide⟩

/-- … in particular a potential that is flat at every temperature is inconclusive. -/
theorem C114_flat_inconclusive (stationary : ℝ → Option P) (ewvev : P → ℝ) {fuel : Nat} (hf : 462 ≤ fuel) :
    restoration (fun _ => 0) stationary ewvev fuel = some 0 := by
  rcases restoration_cases (fun _ => 0) stationary ewvev hf with ⟨j, h1, h2, h3, h4⟩ | ⟨h1, h2⟩
  · exact absurd rfl (stops_ne h2)
  · exact h2

/-! ## Masses that grow with the temperature -/

theorem temp_sq (k : Nat) : temp k ^ 2 = Real.exp (1 / 10) ^ k := by
  rw [temp, ← Real.exp_nat_mul, ← Real.exp_nat_mul]
  congr 1
  push_cast
  ring

theorem temp_sq_succ (k : Nat) : 1 ≤ temp k ^ 2 ∧ 11 / 10 * temp k ^ 2 ≤ temp (k + 1) ^ 2 := by
  have hq : 11 / 10 ≤ Real.exp (1 / 10) := by
    have := Real.add_one_le_exp (1 / 10 : ℝ)
    linarith
  rw [temp_sq, temp_sq, pow_succ]
  have h1 : 1 ≤ Real.exp (1 / 10) ^ k := one_le_pow₀ (by linarith)
  exact ⟨h1, by nlinarith⟩

theorem thermal_difference (a b s t : ℝ) (hs : 0 ≤ s) (ht : 0 ≤ t) :
    (a + b * t) / (1 + t) - (a + b * s) / (1 + s) = (b - a) * (t - s) / ((1 + s) * (1 + t)) := by
  have h1 : 1 + s ≠ 0 := by positivity
  have h2 : 1 + t ≠ 0 := by positivity
  field_simp
  ring

/-- No agreement while the sign is wrong. -/
theorem settled_sign {a b : ℝ} (hb : 0 < b) {k : Nat} (h : Settled (fun i => thermalMass a b (temp i)) k) :
    0 < thermalMass a b (temp k) := by
  obtain ⟨hk, h1, -⟩ := h
  obtain ⟨k, rfl⟩ : ∃ m, k = m + 1 := ⟨k - 1, by omega⟩
  simp only [Nat.add_sub_cancel] at h1
  by_contra hneg
  obtain ⟨hs1, hst⟩ := temp_sq_succ k
  unfold thermalMass at h1 hneg
  generalize temp k ^ 2 = s at h1 hs1 hst
  generalize temp (k + 1) ^ 2 = t at h1 hneg hst
  have ht : 0 < 1 + t := by linarith
  have hs : 0 < 1 + s := by linarith
  have hat : a + b * t ≤ 0 := by
    by_contra hc
    exact hneg (div_pos (not_le.1 hc) ht)
  have has : a + b * s ≤ 0 := by nlinarith
  have ha : a ≤ 0 := by nlinarith
  rw [thermal_difference a b s t (by linarith) (by linarith), abs_of_nonneg (div_nonneg (mul_nonneg (by linarith)
    (by linarith)) (by positivity)), abs_of_nonpos (div_nonpos_of_nonpos_of_nonneg has hs.le)] at h1
  have h2 : (b - a) * (t - s) / ((1 + s) * (1 + t)) = (b - a) * ((t - s) / (1 + t)) / (1 + s) := by
    field_simp
  have h3 : 1 / 22 ≤ (t - s) / (1 + t) := by
    rw [le_div_iff₀ ht]
    linarith
  have h4 : -((a + b * s) / (1 + s)) / 10 ^ 6 = -(a + b * s) / 10 ^ 6 / (1 + s) := by
    field_simp
  rw [h2, h4, div_lt_div_iff_of_pos_right hs] at h1
  have h5 : (b - a) * (1 / 22) ≤ (b - a) * ((t - s) / (1 + t)) := mul_le_mul_of_nonneg_left h3 (by linarith)
  nlinarith

theorem temp_large : 10 ^ 18 ≤ temp 458 ^ 2 := by
  rw [temp_sq]
  have hq : 11 / 10 ≤ Real.exp (1 / 10) := by
    have := Real.add_one_le_exp (1 / 10 : ℝ)
    linarith
  calc (10 : ℝ) ^ 18 ≤ (214 / 100) ^ 57 := by norm_num
    _ ≤ ((11 / 10 : ℝ) ^ 8) ^ 57 := pow_le_pow_left₀ (by norm_num) (by norm_num) 57
    _ ≤ (Real.exp (1 / 10) ^ 8) ^ 57 := pow_le_pow_left₀ (by positivity) (pow_le_pow_left₀ (by norm_num) hq 8) 57
    _ = Real.exp (1 / 10) ^ 456 := by rw [← pow_mul]
    _ ≤ Real.exp (1 / 10) ^ 458 := pow_le_pow_right₀ (by linarith) (by norm_num)

/-- The last temperatures agree. -/
theorem settled_last {a b : ℝ} (hb : 0 < b) (hab : |a - b| ≤ 10 ^ 11 * b) :
    Settled (fun i => thermalMass a b (temp i)) 460 := by
  have key : ∀ s t : ℝ, 10 ^ 18 ≤ s → s ≤ t →
      |(a + b * t) / (1 + t) - (a + b * s) / (1 + s)| < |(a + b * s) / (1 + s)| / 10 ^ 6 := by
    intro s t hs hst
    have hs0 : 0 < 1 + s := by
      have : (0 : ℝ) < 10 ^ 18 := by positivity
      linarith
    have ht0 : 0 < 1 + t := by linarith
    rw [thermal_difference a b s t (by linarith) (by linarith), abs_div, abs_of_pos (mul_pos hs0 ht0), abs_mul,
      abs_of_nonneg (sub_nonneg.2 hst)]
    have h1 : |b - a| * (t - s) / ((1 + s) * (1 + t)) ≤ |b - a| / (1 + s) := by
      rw [div_le_div_iff₀ (mul_pos hs0 ht0) hs0]
      have := abs_nonneg (b - a)
      have h2 : t - s ≤ 1 + t := by linarith
      nlinarith [mul_le_mul_of_nonneg_left h2 (mul_nonneg this hs0.le)]
    have h2 : |b - a| / (1 + s) ≤ b / 10 ^ 7 := by
      rw [abs_sub_comm, div_le_iff₀ hs0]
      calc |a - b| ≤ 10 ^ 11 * b := hab
        _ = b / 10 ^ 7 * 10 ^ 18 := by ring
        _ ≤ b / 10 ^ 7 * (1 + s) := mul_le_mul_of_nonneg_left (by linarith) (by positivity)
    have h3 : (a + b * s) / (1 + s) = b - (b - a) / (1 + s) := by
      field_simp
      ring
    have h4 : b - b / 10 ^ 7 ≤ |(a + b * s) / (1 + s)| := by
      rw [h3]
      have h5 : |(b - a) / (1 + s)| ≤ b / 10 ^ 7 := by rwa [abs_div, abs_of_pos hs0]
      have h6 := le_abs_self (b - (b - a) / (1 + s))
      have h7 := le_abs_self ((b - a) / (1 + s))
      linarith
    have h8 : b / 10 ^ 7 < (b - b / 10 ^ 7) / 10 ^ 6 := by
      have : b - b / 10 ^ 7 = b * (9999999 / 10 ^ 7) := by ring
      rw [this]
      have e1 : b / 10 ^ 7 = b * (1 / 10 ^ 7) := by ring
      rw [e1, mul_div_assoc]
      exact mul_lt_mul_of_pos_left (by norm_num) hb
    calc _ ≤ b / 10 ^ 7 := h1.trans h2
      _ < (b - b / 10 ^ 7) / 10 ^ 6 := h8
      _ ≤ _ := by gcongr
  have m1 := (temp_sq_succ 458).2
  have m2 := (temp_sq_succ 459).2
  have p1 := (temp_sq_succ 458).1
  have p2 := (temp_sq_succ 459).1
  have hl := temp_large
  refine ⟨by norm_num, ?_, ?_⟩
  · exact key _ _ (by linarith) (by linarith)
  · exact key _ _ hl (by linarith)

theorem settled_neg {e : Nat → ℝ} {k : Nat} : Settled (fun i => -e i) k ↔ Settled e k := by
  unfold Settled
  have h : ∀ x y : ℝ, |(-x) - (-y)| = |x - y| := fun x y => by rw [← abs_neg]; congr 1; ring
  simp only [h, abs_neg]

theorem thermalMass_neg (a b T : ℝ) : thermalMass (-a) (-b) T = -thermalMass a b T := by
  unfold thermalMass
  rw [← neg_div]
  congr 1
  ring

theorem thermalMass_bound {a b T M : ℝ} (ha : |a| ≤ M) (hb : |b| ≤ M) : |thermalMass a b T| ≤ M := by
  have h0 : 0 < 1 + T ^ 2 := by positivity
  rw [thermalMass, abs_div, abs_of_pos h0, div_le_iff₀ h0]
  calc |a + b * T ^ 2| ≤ |a| + |b * T ^ 2| := abs_add_le _ _
    _ = |a| + |b| * T ^ 2 := by rw [abs_mul, abs_of_nonneg (sq_nonneg T)]
    _ ≤ M + M * T ^ 2 := add_le_add ha (mul_le_mul_of_nonneg_right hb (sq_nonneg T))
    _ = M * (1 + T ^ 2) := by ring

/-- **C114, the outcome for thermal masses.**  When the smallest eigenvalue of the Hesse matrix at the origin is `a + b T²`, the
check finds the sign of `b`, whatever the sign of `a`: for `b < 0` the potential is not bounded from below at high temperature,
for `b > 0` the minimum at high temperature is analysed. -/
theorem C114_thermal_mass (a b : ℝ) (hab : |a - b| ≤ 10 ^ 11 * |b|) (ha' : |a| ≤ 10 ^ 99)
    (hb' : |b| ≤ 10 ^ 99) (stationary : ℝ → Option P) (ewvev : P → ℝ) {fuel : Nat} (hf : 462 ≤ fuel) :
    (b < 0 → restoration (thermalMass a b) stationary ewvev fuel = some (-1)) ∧
    (0 < b → ∃ k ≤ 460, 0 < a + b * temp k ^ 2 ∧
      (stationary (temp k) = none → restoration (thermalMass a b) stationary ewvev fuel = some 0) ∧
      (∀ p, stationary (temp k) = some p → (ewvev p ≤ 1 / 2 →
          restoration (thermalMass a b) stationary ewvev fuel = some 3) ∧
        (1 / 2 < ewvev p → restoration (thermalMass a b) stationary ewvev fuel = some 2))) := by
  obtain ⟨-, -, -, h⟩ := C114_check (thermalMass a b) stationary ewvev
    (fun T => thermalMass_bound ha' hb') hf
  have pos : ∀ k : Nat, 0 < 1 + temp k ^ 2 := fun k => by positivity
  refine ⟨fun hn => ?_, fun hp => ?_⟩
  · have flip : ∀ k, Settled (fun i => thermalMass a b (temp i)) k ↔
        Settled (fun i => thermalMass (-a) (-b) (temp i)) k := by
      intro k
      simp only [thermalMass_neg]
      exact settled_neg.symm
    rcases h with ⟨k, h1, h2, h3, h4⟩ | ⟨h1, -⟩
    · have := settled_sign (neg_pos.2 hn) ((flip k).1 h2)
      rw [thermalMass_neg] at this
      rw [h4, ewsrOutcome.eq_def]
      simp [neg_pos.1 this]
    · refine absurd ((flip 460).2 (settled_last (neg_pos.2 hn) ?_)) (h1 460 le_rfl)
      rw [abs_of_neg hn] at hab
      have : -a - -b = -(a - b) := by ring
      rw [this, abs_neg]
      exact hab
  · rcases h with ⟨k, h1, h2, h3, h4⟩ | ⟨h1, -⟩
    · have hm := settled_sign hp h2
      refine ⟨k, h1, ?_, fun hs => ?_, fun p hs => ⟨fun he => ?_, fun he => ?_⟩⟩
      · rw [thermalMass] at hm
        have := mul_pos hm (pos k)
        rwa [div_mul_cancel₀ _ (pos k).ne'] at this
      · rw [h4, ewsrOutcome.eq_def]
        simp [not_lt.2 hm.le, hm.ne', hs]
      · rw [h4, ewsrOutcome.eq_def]
        simp only [Bool.not_true, Bool.false_eq_true, if_false, not_lt.2 hm.le, hm.ne', hs, he, if_true]
      · rw [h4, ewsrOutcome.eq_def]
        simp only [Bool.not_true, Bool.false_eq_true, if_false, not_lt.2 hm.le, hm.ne', hs, not_le.2 he]
    · rw [abs_of_pos hp] at hab
      exact absurd (settled_last hp hab) (h1 460 le_rfl)

example (stationary : ℝ → Option P) (ewvev : P → ℝ) :
    restoration (thermalMass 10000 (-1 / 100)) stationary ewvev 500 = some (-1) :=
  (C114_thermal_mass 10000 (-1 / 100) (by norm_num [abs_of_pos, abs_of_neg]) (by norm_num [abs_of_pos])
    (by norm_num [abs_of_neg]) stationary ewvev (by norm_num)).1 (by norm_num)

/-- **C114, refuted.**  Three neighbouring temperatures need not be high: for a potential that is unbounded from below at all
temperatures from 2 GeV on but has the same positive eigenvalue at the first three temperatures, the check ends at 1.1 GeV and
the status is that the symmetry is restored. -/
theorem C114_ends_early_fails (ewvev : Unit → ℝ) (he : ewvev () ≤ 1 / 2) {fuel : Nat} (hf : 462 ≤ fuel) :
    ∃ ev : ℝ → ℝ, (∀ T, 2 ≤ T → ev T = -1) ∧
      restoration ev (fun _ => some ()) ewvev fuel = some 3 ∧ getStatusEWSR 3 = .ewSymRes := by
  classical
  refine ⟨fun T => if 2 ≤ T then -1 else 1, fun T hT => if_pos hT, ?_, rfl⟩
  have small : ∀ k ≤ 2, ¬ 2 ≤ temp k := by
    intro k hk h
    have h1 : temp k ^ 2 < 2 := by
      rw [temp_sq]
      have hq : Real.exp (1 / 10) ≤ 6 / 5 := by
        have h := Real.exp_bound_div_one_sub_of_interval (x := (1 / 10 : ℝ)) (by norm_num) (by norm_num)
        exact h.trans (by norm_num)
      have hq1 : 1 ≤ Real.exp (1 / 10 : ℝ) := Real.one_le_exp (by norm_num)
      calc Real.exp (1 / 10) ^ k ≤ Real.exp (1 / 10) ^ 2 := pow_le_pow_right₀ hq1 hk
        _ ≤ (6 / 5) ^ 2 := pow_le_pow_left₀ (by linarith) hq 2
        _ < 2 := by norm_num
    nlinarith
  obtain ⟨-, -, -, h⟩ := C114_check (fun T => if 2 ≤ T then -1 else 1) (fun _ => some ()) ewvev
    (fun T => by
      have : (1 : ℝ) ≤ 10 ^ 99 := one_le_pow₀ (by norm_num)
      split_ifs <;> simpa using this) hf
  have hs : Settled (fun i => if 2 ≤ temp i then (-1 : ℝ) else 1) 2 := by
    refine ⟨le_rfl, ?_, ?_⟩
    · simp only [small 2 le_rfl, small 1 (by norm_num), if_false]
      norm_num
    · simp only [small 2 le_rfl, small 0 (by norm_num), if_false]
      norm_num
  rcases h with ⟨k, h1, h2, h3, h4⟩ | ⟨h1, -⟩
  · have hk : k = 2 := by
      rcases lt_trichotomy k 2 with h | h | h
      · exact absurd h2.1 (by omega)
      · exact h
      · exact absurd hs (h3 2 h)
    subst hk
    rw [h4]
    simp only [small 2 le_rfl, if_false, ewsrOutcome, Bool.not_true, Bool.false_eq_true, he, if_true]
    norm_num
  · exact absurd hs (h1 2 (by norm_num))

end Verif.Tracer
