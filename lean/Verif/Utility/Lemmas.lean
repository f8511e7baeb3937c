import Verif.Utility.Model
import Verif.Utility.Spec

namespace Verif.Utility

open Outcome Spec

theorem split_nil (d : Char) : split [] d = [] := by
  rw [split]; simp [getline]

theorem split_eq (c : Char) (s : List Char) (d : Char) :
    split (c :: s) d = (c :: s).takeWhile (· != d) ::
      split ((c :: s).dropWhile (· != d)).tail d := by
  conv => lhs; rw [split]
  simp only [getline]

theorem takeWhile_free {d : Char} {t rest : List Char} (h : d ∉ t) :
    (t ++ d :: rest).takeWhile (· != d) = t := by
  induction t with
  | nil => simp
  | cons c t ih =>
    simp only [List.mem_cons, not_or] at h
    simp [Ne.symm h.1, ih h.2]

theorem dropWhile_free {d : Char} {t rest : List Char} (h : d ∉ t) :
    (t ++ d :: rest).dropWhile (· != d) = d :: rest := by
  induction t with
  | nil => simp
  | cons c t ih =>
    simp only [List.mem_cons, not_or] at h
    simp [Ne.symm h.1, ih h.2]

theorem split_append {d : Char} {t rest : List Char} (h : d ∉ t) :
    split (t ++ d :: rest) d = t :: split rest d := by
  cases t with
  | nil => simp [split_eq]
  | cons c t =>
    rw [List.cons_append, split_eq, ← List.cons_append, takeWhile_free h, dropWhile_free h]
    rfl

theorem takeWhile_all {d : Char} {t : List Char} (h : d ∉ t) : t.takeWhile (· != d) = t := by
  induction t with
  | nil => simp
  | cons c t ih =>
    simp only [List.mem_cons, not_or] at h
    simp [Ne.symm h.1, ih h.2]

theorem dropWhile_all {d : Char} {t : List Char} (h : d ∉ t) : t.dropWhile (· != d) = [] := by
  induction t with
  | nil => simp
  | cons c t ih =>
    simp only [List.mem_cons, not_or] at h
    simp [Ne.symm h.1, ih h.2]

theorem split_single {d : Char} {t : List Char} (h : d ∉ t) (hne : t ≠ []) :
    split t d = [t] := by
  cases t with
  | nil => exact absurd rfl hne
  | cons c t =>
    have h1 := takeWhile_all h
    have h2 := dropWhile_all h
    rw [split_eq, h1, h2, List.tail_nil, split_nil]

/-- Every string decomposes as "token, delimiter, rest" or is a single delimiter-free token. -/
theorem exists_token (d : Char) (s : List Char) :
    d ∉ s ∨ ∃ t rest, d ∉ t ∧ s = t ++ d :: rest := by
  induction s with
  | nil => simp
  | cons c s ih =>
    by_cases hc : c = d
    · exact Or.inr ⟨[], s, by simp, by simp [hc]⟩
    · rcases ih with h | ⟨t, rest, h, rfl⟩
      · left; simp [h, Ne.symm hc]
      · right; exact ⟨c :: t, rest, by simp [h, Ne.symm hc], by simp⟩

theorem join_cons (d : Char) (t : List Char) {l : List (List Char)} (h : l ≠ []) :
    join d (t :: l) = t ++ d :: join d l := by
  cases l with
  | nil => exact absurd rfl h
  | cons u l => rfl

/-- Overflow is permanent: a product of a number that is at least `2^31` in absolute value. -/
theorem int32_ok {x y : Int} : int32 x = ok y ↔ x = y ∧ -2147483648 ≤ x ∧ x ≤ 2147483647 := by
  unfold int32 inInt32
  by_cases h : -2147483648 ≤ x ∧ x ≤ 2147483647
  · simp [h.1, h.2]
  · by_cases h1 : -2147483648 ≤ x
    · have h2 : ¬ x ≤ 2147483647 := fun h2 => h ⟨h1, h2⟩
      simp [h1, h2]
    · simp [h1]

theorem int32_cases (x : Int) :
    (int32 x = ok x ∧ -2147483648 ≤ x ∧ x ≤ 2147483647) ∨
    (int32 x = ub .overflow ∧ ¬ (-2147483648 ≤ x ∧ x ≤ 2147483647)) := by
  by_cases h : -2147483648 ≤ x ∧ x ≤ 2147483647
  · exact Or.inl ⟨int32_ok.2 ⟨rfl, h⟩, h⟩
  · refine Or.inr ⟨?_, h⟩
    unfold int32 inInt32
    by_cases h1 : -2147483648 ≤ x
    · have h2 : ¬ x ≤ 2147483647 := fun h2 => h ⟨h1, h2⟩
      simp [h2]
    · simp [h1]

theorem fact_pos (n : Nat) : 0 < fact n := by
  induction n with
  | zero => simp [fact]
  | succ n ih => simp only [fact]; exact Nat.mul_pos (by omega) ih

theorem fact_ge_13 (n : Nat) (h : 13 ≤ n) : 2147483647 < fact n := by
  induction n with
  | zero => omega
  | succ n ih =>
    by_cases h' : n + 1 = 13
    · have : n = 12 := by omega
      subst this; decide
    · have := ih (by omega)
      have : fact (n + 1) = (n + 1) * fact n := rfl
      rw [this]
      calc 2147483647 < fact n := by assumption
        _ = 1 * fact n := by omega
        _ ≤ (n + 1) * fact n := Nat.mul_le_mul_right _ (by omega)

theorem fact_le_12 (n : Nat) (h : n ≤ 12) : fact n ≤ 2147483647 := by
  have : n = 0 ∨ n = 1 ∨ n = 2 ∨ n = 3 ∨ n = 4 ∨ n = 5 ∨ n = 6 ∨ n = 7 ∨ n = 8 ∨ n = 9 ∨ n = 10 ∨
    n = 11 ∨ n = 12 := by omega
  rcases this with h | h | h | h | h | h | h | h | h | h | h | h | h <;> subst h <;> decide

/-- A call that returns a value returns the factorial. -/
theorem factorial_ok (fuel : Nat) (n : Nat) (r : Int)
    (h : factorial fuel n = ok r) : r = fact n := by
  induction fuel generalizing n r with
  | zero => simp [factorial] at h
  | succ fuel ih =>
    rw [factorial] at h
    by_cases hn : (n : Int) = 1 ∨ (n : Int) = 0
    · rw [if_pos hn] at h
      simp at h
      have : n = 1 ∨ n = 0 := by omega
      rcases this with rfl | rfl <;> simp [fact, ← h]
    · rw [if_neg hn] at h
      have hn' : 2 ≤ n := by omega
      rcases int32_cases ((n : Int) - 1) with ⟨h1, _⟩ | ⟨h1, _⟩
      · rw [h1] at h
        have e : ((n : Int) - 1) = ((n - 1 : Nat) : Int) := by omega
        rw [e] at h
        simp only [bind_ok] at h
        cases hf : factorial fuel ((n - 1 : Nat) : Int) with
        | ok q =>
          rw [hf] at h
          simp only [bind_ok] at h
          have hq := ih _ _ hf
          rw [int32_ok] at h
          rw [← h.1, hq]
          obtain ⟨m, rfl⟩ : ∃ m, n = m + 1 := ⟨n - 1, by omega⟩
          simp only [Nat.add_sub_cancel, fact]
          rw [Int.mul_comm]; norm_cast
        | err e => rw [hf] at h; simp at h
        | ub u => rw [hf] at h; simp at h
      · rw [h1] at h; simp at h

theorem factorial_small (n fuel : Nat) (hn : n ≤ 12) (hf : n < fuel) :
    factorial fuel n = ok (fact n : Int) := by
  induction n generalizing fuel with
  | zero =>
    obtain ⟨f, rfl⟩ : ∃ f, fuel = f + 1 := ⟨fuel - 1, by omega⟩
    simp [factorial, fact]
  | succ n ih =>
    obtain ⟨f, rfl⟩ : ∃ f, fuel = f + 1 := ⟨fuel - 1, by omega⟩
    rw [factorial]
    by_cases h : ((n + 1 : Nat) : Int) = 1 ∨ ((n + 1 : Nat) : Int) = 0
    · rw [if_pos h]
      have : n = 0 := by omega
      subst this; simp [fact]
    · rw [if_neg h]
      have e : (((n + 1 : Nat) : Int) - 1) = (n : Int) := by omega
      rw [e, int32_ok.2 ⟨rfl, by omega, by omega⟩]
      simp only [bind_ok]
      rw [ih f (by omega) (by omega)]
      simp only [bind_ok]
      have e2 : ((fact n : Int) * ((n + 1 : Nat) : Int)) = ((fact (n + 1) : Nat) : Int) := by
        simp only [fact]; rw [Int.mul_comm]; norm_cast
      rw [e2, int32_ok.2 ⟨rfl, ?_, ?_⟩]
      · have := fact_pos (n + 1); omega
      · have := fact_le_12 (n + 1) hn; omega

/-- Errors other than undefined behaviour never come out of `factorial`. -/
theorem factorial_ok_or_ub (fuel : Nat) (a : Int) :
    (∃ r, factorial fuel a = ok r) ∨ ∃ u, factorial fuel a = ub u := by
  induction fuel generalizing a with
  | zero => right; exact ⟨_, rfl⟩
  | succ fuel ih =>
    rw [factorial]
    split
    · left; exact ⟨_, rfl⟩
    · rcases int32_cases (a - 1) with ⟨h1, _⟩ | ⟨h1, _⟩
      · rw [h1, bind_ok]
        rcases ih (a - 1) with ⟨r, hr⟩ | ⟨u, hu⟩
        · rw [hr, bind_ok]
          rcases int32_cases (r * a) with ⟨h2, _⟩ | ⟨h2, _⟩
          · left; exact ⟨_, h2⟩
          · right; exact ⟨_, h2⟩
        · rw [hu]; right; exact ⟨_, rfl⟩
      · rw [h1]; right; exact ⟨_, rfl⟩

theorem factorial_neg (fuel : Nat) (a : Int) (ha : a < 0) : ∃ u, factorial fuel a = ub u := by
  induction fuel generalizing a with
  | zero => exact ⟨_, rfl⟩
  | succ fuel ih =>
    rw [factorial, if_neg (by omega)]
    rcases int32_cases (a - 1) with ⟨h1, _⟩ | ⟨h1, _⟩
    · rw [h1, bind_ok]
      obtain ⟨u, hu⟩ := ih (a - 1) (by omega)
      rw [hu]; exact ⟨_, rfl⟩
    · rw [h1]; exact ⟨_, rfl⟩

end Verif.Utility
