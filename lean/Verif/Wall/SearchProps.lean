import Verif.Wall.Search
import Mathlib.Algebra.Order.Field.Rat
import Mathlib.Tactic.Positivity
import Mathlib.Tactic.NormNum
import Mathlib.Tactic.Linarith

/-!
# The search for the top of the barrier (C129)
-/

set_option linter.unusedVariables false
set_option linter.unusedSectionVars false
set_option linter.unusedSimpArgs false

namespace Verif.Wall.Search

open Outcome

/-! ## Specification -/

namespace Spec

variable {S K : Type} [Field K] [LinearOrder K]

/-- The state of the algorithm after `n` iterations. -/
def after (m : Brent S K) (guess : K) : Nat → S
  | 0 => (m.set guess).1
  | n + 1 => (m.iterate (after m guess n)).1

/-- The interval that the algorithm still considers is shorter than 0.0001. -/
def Narrow (m : Brent S K) (s : S) : Prop :=
  m.lower s ≤ m.upper s ∧ m.upper s - m.lower s < 1 / 10000

/-- The interval is a proper one, but still as long as 0.0001 or longer. -/
def Wide (m : Brent S K) (s : S) : Prop := 1 / 10000 ≤ m.upper s - m.lower s

/-- The algorithm has converged after `n` iterations, for the first time and without an error before. -/
def Converged (m : Brent S K) (guess : K) (n : Nat) : Prop :=
  0 < n ∧ n ≤ 600 ∧ (∀ k < n, (m.iterate (after m guess k)).2 = 0) ∧
    (∀ k, 0 < k → k < n → Wide m (after m guess k)) ∧ Narrow m (after m guess n)

open Classical in
/-- The position and the value that the algorithm finds from the guess, if it converges. -/
noncomputable def found (m : Brent S K) (guess : K) : Option (K × K) :=
  if h : ∃ n, Converged m guess n then
    some (m.x (after m guess h.choose), m.f (after m guess h.choose))
  else none

/-- What is found from the first `n` guesses. -/
noncomputable def foundFrom (m : Brent S K) (rnd : Nat → K) (n : Nat) : List (K × K) :=
  (List.range n).filterMap fun k => found m (rnd k)

end Spec

open Spec

variable {S K : Type} [Field K] [LinearOrder K] [IsStrictOrderedRing K]

/-! ## One run -/

theorem not_small_of_open {m : Brent S K} {s : S} (h : Wide m s) : ¬ Narrow m s :=
  fun h2 => absurd h2.2 (not_lt.2 h)

theorem test_small (m : Brent S K) (s : S) :
    testInterval (m.lower s) (m.upper s) tolerance = 0 ↔ Narrow m s := by
  unfold testInterval Narrow tolerance
  by_cases h : m.upper s < m.lower s
  · rw [if_pos h]
    exact ⟨fun h2 => (by cases h2), fun h2 => absurd h2.1 (not_le.2 h)⟩
  · rw [if_neg h, abs_of_nonneg (by linarith [not_lt.1 h])]
    have e : (1 : K) / 10 ^ 4 = 1 / 10000 := by norm_num
    rw [e]
    by_cases h2 : m.upper s - m.lower s < 1 / 10000
    · rw [if_pos h2]; exact ⟨fun _ => ⟨not_lt.1 h, h2⟩, fun _ => rfl⟩
    · rw [if_neg h2]; exact ⟨fun h3 => (by cases h3), fun h3 => absurd h3.2 h2⟩

theorem test_open (m : Brent S K) (s : S) :
    testInterval (m.lower s) (m.upper s) tolerance = -2 ↔ Wide m s := by
  unfold testInterval Wide tolerance
  have e : (1 : K) / 10 ^ 4 = 1 / 10000 := by norm_num
  have p : (0 : K) < 1 / 10000 := by positivity
  by_cases h : m.upper s < m.lower s
  · rw [if_pos h]
    refine ⟨fun h2 => (by cases h2), fun h2 => ?_⟩
    linarith
  · rw [if_neg h, abs_of_nonneg (by linarith [not_lt.1 h]), e]
    by_cases h2 : m.upper s - m.lower s < 1 / 10000
    · rw [if_pos h2]; exact ⟨fun h3 => (by cases h3), fun h3 => absurd h2 (not_lt.2 h3)⟩
    · rw [if_neg h2]; exact ⟨fun _ => not_lt.1 h2, fun _ => rfl⟩

theorem Converged_unique (m : Brent S K) (guess : K) {a b : Nat}
    (ha : Converged m guess a) (hb : Converged m guess b) : a = b := by
  rcases Nat.lt_trichotomy a b with h | h | h
  · exact absurd ha.2.2.2.2 (not_small_of_open (hb.2.2.2.1 a ha.1 h))
  · exact h
  · exact absurd hb.2.2.2.2 (not_small_of_open (ha.2.2.2.1 b hb.1 h))

theorem found_eq (m : Brent S K) (guess : K) (n : Nat) (h : Converged m guess n) :
    found m guess = some (m.x (after m guess n), m.f (after m guess n)) := by
  have hex : ∃ n, Converged m guess n := ⟨n, h⟩
  unfold found
  rw [dif_pos hex, Converged_unique m guess hex.choose_spec h]

theorem found_none (m : Brent S K) (guess : K) (h : ∀ n, ¬ Converged m guess n) : found m guess = none := by
  unfold found
  rw [dif_neg (fun hex => h _ hex.choose_spec)]

theorem loop_eq (m : Brent S K) (left : Nat) (s : S) :
    loop m left s =
      if (m.iterate s).2 ≠ 0 then m.iterate s
      else if testInterval (m.lower (m.iterate s).1) (m.upper (m.iterate s).1) tolerance = -2 then
        (match left with
        | 0 => ((m.iterate s).1, testInterval (m.lower (m.iterate s).1) (m.upper (m.iterate s).1) tolerance)
        | left' + 1 => loop m left' (m.iterate s).1)
      else ((m.iterate s).1, testInterval (m.lower (m.iterate s).1) (m.upper (m.iterate s).1) tolerance) := by
  cases left <;> rfl

theorem loop_spec (m : Brent S K) (guess : K) :
    ∀ (left k : Nat), k + left + 1 = 600 →
      (∀ j < k, (m.iterate (after m guess j)).2 = 0) →
      (∀ j, 0 < j → j ≤ k → Wide m (after m guess j)) →
      ((loop m left (after m guess k)).2 = 0 ∧
        ∃ n, Converged m guess n ∧ (loop m left (after m guess k)).1 = after m guess n) ∨
      ((loop m left (after m guess k)).2 ≠ 0 ∧ ∀ n, ¬ Converged m guess n) := by
  intro left
  induction left with
  | zero =>
    intro k hk hit hop
    rw [loop_eq]
    by_cases h : (m.iterate (after m guess k)).2 ≠ 0
    · right
      rw [if_pos h]
      refine ⟨h, fun n hn => ?_⟩
      by_cases hkn : k < n
      · exact h (hn.2.2.1 k hkn)
      · exact not_small_of_open (hop n hn.1 (by omega)) hn.2.2.2.2
    · rw [if_neg h]
      have h0 : (m.iterate (after m guess k)).2 = 0 := by simpa using h
      by_cases hs : Narrow m (m.iterate (after m guess k)).1
      · left
        have e := (test_small m _).2 hs
        rw [if_neg (by rw [e]; decide)]
        refine ⟨e, k + 1, ⟨by omega, by omega, fun j hj => ?_, fun j hj0 hj => hop j hj0 (by omega), hs⟩, rfl⟩
        rcases Nat.lt_succ_iff_lt_or_eq.1 hj with h1 | h1
        · exact hit j h1
        · rw [h1]; exact h0
      · right
        have hne := mt (test_small m (m.iterate (after m guess k)).1).1 hs
        refine ⟨by split <;> exact hne, fun n hn => ?_⟩
        by_cases hkn : n ≤ k
        · exact not_small_of_open (hop n hn.1 hkn) hn.2.2.2.2
        · have : n = k + 1 := by have := hn.2.1; omega
          subst this
          exact hs hn.2.2.2.2
  | succ left ih =>
    intro k hk hit hop
    rw [loop_eq]
    by_cases h : (m.iterate (after m guess k)).2 ≠ 0
    · right
      rw [if_pos h]
      refine ⟨h, fun n hn => ?_⟩
      by_cases hkn : k < n
      · exact h (hn.2.2.1 k hkn)
      · exact not_small_of_open (hop n hn.1 (by omega)) hn.2.2.2.2
    · rw [if_neg h]
      have h0 : (m.iterate (after m guess k)).2 = 0 := by simpa using h
      have hit' : ∀ j < k + 1, (m.iterate (after m guess j)).2 = 0 := by
        intro j hj
        rcases Nat.lt_succ_iff_lt_or_eq.1 hj with h1 | h1
        · exact hit j h1
        · rw [h1]; exact h0
      by_cases hs : Narrow m (m.iterate (after m guess k)).1
      · left
        have e := (test_small m _).2 hs
        rw [if_neg (by rw [e]; decide)]
        exact ⟨e, k + 1, ⟨by omega, by omega, hit', fun j hj0 hj => hop j hj0 (by omega), hs⟩, rfl⟩
      · by_cases ho : Wide m (m.iterate (after m guess k)).1
        · rw [if_pos ((test_open m _).2 ho)]
          refine ih (k + 1) (by omega) hit' fun j hj0 hj => ?_
          rcases Nat.le_succ_iff.1 hj with h1 | h1
          · exact hop j hj0 h1
          · rw [h1]; exact ho
        · right
          rw [if_neg (mt (test_open m _).1 ho)]
          refine ⟨mt (test_small m (m.iterate (after m guess k)).1).1 hs, fun n hn => ?_⟩
          rcases Nat.lt_trichotomy n (k + 1) with h1 | h1 | h1
          · exact not_small_of_open (hop n hn.1 (by omega)) hn.2.2.2.2
          · subst h1; exact hs hn.2.2.2.2
          · exact ho (hn.2.2.2.1 (k + 1) (by omega) h1)

/-- A run appends to the solutions the position and the value to which the algorithm converged within 600
iterations, and reports success exactly in this case; otherwise the solutions stay as they are. -/
theorem C129_run (m : Brent S K) (sols : List (K × K)) (guess : K) :
    maximize m sols guess = (sols ++ (found m guess).toList, (found m guess).isSome) := by
  unfold maximize
  rcases loop_spec m guess 599 0 (by omega) (by omega) (by omega) with ⟨h0, n, hn, h1⟩ | ⟨h0, hno⟩
  · rw [after] at h0 h1
    rw [found_eq m guess n hn]
    simp only [Nat.reduceSub]
    rw [if_pos h0, h1]
    rfl
  · rw [after] at h0
    rw [found_none m guess hno]
    simp only [Nat.reduceSub]
    rw [if_neg h0]
    simp

/-- A position that is found is the end of a run whose interval is shorter than 0.0001.  If the algorithm
keeps its position inside of its interval, and the top of the barrier as well, the two are closer than this. -/
theorem C129_accuracy (m : Brent S K) (guess t v top : K) (h : found m guess = some (t, v))
    (hin : ∀ n, 0 < n → (∀ k < n, (m.iterate (after m guess k)).2 = 0) →
      (m.lower (after m guess n) ≤ m.x (after m guess n) ∧ m.x (after m guess n) ≤ m.upper (after m guess n)) ∧
      m.lower (after m guess n) ≤ top ∧ top ≤ m.upper (after m guess n)) :
    |t - top| < 1 / 10000 := by
  by_cases hex : ∃ n, Converged m guess n
  · obtain ⟨n, hn⟩ := hex
    rw [found_eq m guess n hn] at h
    injection h with h
    injection h with h1 h2
    subst h1
    obtain ⟨⟨a, b⟩, c, d⟩ := hin n hn.1 hn.2.2.1
    have := hn.2.2.2.2.2
    rw [abs_lt]
    constructor <;> linarith
  · rw [found_none m guess (fun n hn => hex ⟨n, hn⟩)] at h
    cases h

/-! ## Many runs -/

theorem foundFrom_succ (m : Brent S K) (rnd : Nat → K) (n : Nat) :
    foundFrom m rnd (n + 1) = foundFrom m rnd n ++ (found m (rnd n)).toList := by
  unfold foundFrom
  rw [List.range_succ, List.filterMap_append]
  cases h : found m (rnd n) <;> simp [h]

theorem foundFrom_mono (m : Brent S K) (rnd : Nat → K) {a b : Nat} (h : a ≤ b) :
    (foundFrom m rnd a).length ≤ (foundFrom m rnd b).length := by
  induction b with
  | zero => have : a = 0 := by omega
            subst this; exact le_refl _
  | succ b ih =>
    rcases Nat.le_succ_iff.1 h with h1 | h1
    · refine (ih h1).trans ?_
      rw [foundFrom_succ, List.length_append]; omega
    · rw [h1]

theorem tries_eq (m : Brent S K) (rnd : Nat → K) (fuel n : Nat) (h : (foundFrom m rnd n).length < 20) :
    (∀ l, tries m rnd fuel n (foundFrom m rnd n) = some l ↔
      ∃ k, k ≤ n + fuel ∧ l = foundFrom m rnd k ∧ (foundFrom m rnd k).length = 20 ∧
        ∀ j < k, (foundFrom m rnd j).length < 20) := by
  induction fuel generalizing n with
  | zero =>
    intro l
    refine ⟨fun h2 => (by cases h2), ?_⟩
    rintro ⟨k, hk, -, h20, -⟩
    have := foundFrom_mono m rnd (show k ≤ n by omega)
    omega
  | succ fuel ih =>
    intro l
    rw [tries, C129_run]
    simp only []
    rw [← foundFrom_succ]
    have hle : (foundFrom m rnd (n + 1)).length ≤ 20 := by
      rw [foundFrom_succ, List.length_append]
      have : (found m (rnd n)).toList.length ≤ 1 := by cases found m (rnd n) <;> simp
      omega
    have hbelow : ∀ j < n + 1, (foundFrom m rnd j).length < 20 := fun j hj =>
      lt_of_le_of_lt (foundFrom_mono m rnd (show j ≤ n by omega)) h
    by_cases h20 : (foundFrom m rnd (n + 1)).length = 20
    · rw [if_neg (by simpa using h20)]
      constructor
      · intro e
        injection e with e
        exact ⟨n + 1, by omega, e.symm, h20, hbelow⟩
      · rintro ⟨k, hk, rfl, hk20, hmin⟩
        have : k = n + 1 := by
          rcases Nat.lt_trichotomy k (n + 1) with h1 | h1 | h1
          · have := hbelow k h1; omega
          · exact h1
          · have := hmin (n + 1) h1; omega
        rw [this]
    · rw [if_pos h20, ih (n + 1) (by omega)]
      constructor
      · rintro ⟨k, hk, r⟩; exact ⟨k, by omega, r⟩
      · rintro ⟨k, hk, r⟩; exact ⟨k, by omega, r⟩

/-- The tries end exactly when twenty of them have converged, and the solutions are then those that were found,
in the order of the guesses. -/
theorem C129_tries (m : Brent S K) (rnd : Nat → K) (fuel : Nat) (l : List (K × K)) :
    tries m rnd fuel 0 [] = some l ↔
      ∃ n, n ≤ fuel ∧ l = foundFrom m rnd n ∧ l.length = 20 ∧ ∀ j < n, (foundFrom m rnd j).length < 20 := by
  have := tries_eq m rnd fuel 0 (by simp [foundFrom]) l
  rw [show foundFrom m rnd 0 = [] from rfl] at this
  rw [this]
  constructor
  · rintro ⟨k, hk, rfl, r⟩; exact ⟨k, by omega, rfl, r⟩
  · rintro ⟨k, hk, rfl, r⟩; exact ⟨k, by omega, rfl, r⟩

/-- The barrier is measured at the solution of the largest value of the minimised function, relative to the lower of the two
minima; its position and its height are appended to an empty vector or replace one of the right length. -/
theorem C129_barrier (m : Brent S K) (rnd : Nat → K) (fuel n : Nat) (order : List K → Outcome (List K))
    (ord : List K → List K) (hord : ∀ v, order v = ok (ord v)) (veff : List K → K) (vcrit solV : List K)
    (hsol : solV = [] ∨ solV.length = vcrit.length)
    (hn : n ≤ fuel) (h20 : (foundFrom m rnd n).length = 20) (hmin : ∀ j < n, (foundFrom m rnd j).length < 20) :
    ∃ t v, (t, v) ∈ foundFrom m rnd n ∧ (∀ s ∈ foundFrom m rnd n, s.2 ≤ v) ∧
      findLine m rnd fuel order veff vcrit solV = ok (some ((vcrit.map fun x => t * x) ++
        [veff (ord (vcrit.map fun x => t * x)) -
          min (veff ((ord vcrit).map fun _ => 0)) (veff (ord vcrit))])) := by
  have ht := (C129_tries m rnd fuel (foundFrom m rnd n)).2 ⟨n, hn, rfl, h20, hmin⟩
  cases hl : foundFrom m rnd n with
  | nil => rw [hl] at h20; cases h20
  | cons first rest =>
    rw [hl] at ht
    have hch : ∀ (rest : List (K × K)) (b : K × K), choose b rest ∈ b :: rest ∧
        ∀ s ∈ b :: rest, s.2 ≤ (choose b rest).2 := by
      intro rest
      induction rest with
      | nil => intro b; simp [choose]
      | cons a rest ih =>
        intro b
        have e : choose b (a :: rest) = choose (if b.2 < a.2 then a else b) rest := rfl
        rw [e]
        obtain ⟨i1, i2⟩ := ih (if b.2 < a.2 then a else b)
        have hb := i2 _ (List.mem_cons_self ..)
        refine ⟨?_, ?_⟩
        · rcases List.mem_cons.1 i1 with h | h
          · rw [h]; split <;> simp
          · exact List.mem_cons_of_mem _ (List.mem_cons_of_mem _ h)
        · intro s hs
          rcases List.mem_cons.1 hs with h | h
          · rw [h]
            refine le_trans ?_ hb
            split
            · exact le_of_lt (by assumption)
            · exact le_refl _
          · rcases List.mem_cons.1 h with h | h
            · rw [h]
              refine le_trans ?_ hb
              split
              · exact le_refl _
              · exact not_lt.1 (by assumption)
            · exact i2 s (List.mem_cons_of_mem _ h)
    obtain ⟨c1, c2⟩ := hch rest first
    refine ⟨(choose first rest).1, (choose first rest).2, c1, c2, ?_⟩
    unfold findLine
    rw [ht]
    have hp : position (choose first rest).1 vcrit solV = vcrit.map fun x => (choose first rest).1 * x := by
      unfold position
      rw [if_neg]
      rintro ⟨a, b⟩
      rcases hsol with h | h
      · rw [h] at a; exact a rfl
      · exact b h
    simp only [hp, hord, bind_ok]

/-- The thickness of the wall from the height of the barrier; a height of zero gives the thickness zero. -/
theorem C129_thickness (m : Brent S K) (rnd : Nat → K) (fuel n : Nat) (order : List K → Outcome (List K))
    (ord : List K → List K) (hord : ∀ v, order v = ok (ord v)) (veff : List K → K) (sqrt : K → K)
    (ewsb : List K → K) (vcrit : List K)
    (hn : n ≤ fuel) (h20 : (foundFrom m rnd n).length = 20) (hmin : ∀ j < n, (foundFrom m rnd j).length < 20) :
    ∃ t v, (t, v) ∈ foundFrom m rnd n ∧ (∀ s ∈ foundFrom m rnd n, s.2 ≤ v) ∧
      ∀ height, height = veff (ord (vcrit.map fun x => t * x)) -
          min (veff ((ord vcrit).map fun _ => 0)) (veff (ord vcrit)) →
        (height ≠ 0 → thickness m rnd fuel order veff sqrt ewsb vcrit =
          ok (some (ewsb (ord vcrit) / sqrt (8 * height)))) ∧
        (height = 0 → thickness m rnd fuel order veff sqrt ewsb vcrit = ok (some 0)) := by
  obtain ⟨t, v, h1, h2, h3⟩ := C129_barrier m rnd fuel n order ord hord veff vcrit [] (Or.inl rfl) hn h20 hmin
  refine ⟨t, v, h1, h2, fun height hh => ?_⟩
  unfold thickness
  rw [h3]
  simp only [bind_ok]
  rw [at'_of_lt (by simp)]
  simp only [bind_ok, hord]
  rw [List.getElem_append_right (by simp)]
  simp only [List.length_map, Nat.sub_self, List.getElem_cons_zero]
  rw [← hh]
  exact ⟨fun h => by rw [if_pos h], fun h => by rw [if_neg (not_not.2 h)]⟩

/-- The property fails for potentials in which the algorithm converges from less than twenty guesses, for
example from none because there is no barrier: the tries never end, although the code counts them. -/
theorem C129_endless_fails (m : Brent S K) (rnd : Nat → K) (h : ∀ n, (foundFrom m rnd n).length < 20)
    (order : List K → Outcome (List K)) (veff : List K → K) (vcrit solV : List K) :
    ∀ fuel, findLine m rnd fuel order veff vcrit solV = ok none := by
  intro fuel
  have : tries m rnd fuel 0 [] = none := by
    cases ht : tries m rnd fuel 0 [] with
    | none => rfl
    | some l =>
      obtain ⟨n, -, rfl, h20, -⟩ := (C129_tries m rnd fuel _).1 ht
      have := h n
      omega
  unfold findLine
  rw [this]

/-- The property fails for guesses that the algorithm rejects because the value there is not below those at both
ends: its answer is not looked at, and the run goes on with whatever the state is. -/
theorem C129_rejected_guess_fails :
    ∃ (m : Brent ℚ ℚ) (guess : ℚ), (m.set guess).2 ≠ 0 ∧ maximize m [] guess = ([(1 / 2, 7)], true) := by
  refine ⟨⟨fun g => (g, 4), fun s => (s, 0), fun _ => 1 / 2, fun _ => 1 / 2, fun _ => 1 / 2, fun _ => 7⟩, 0, by decide, ?_⟩
  decide +kernel

/-- A vector of the wrong length is not replaced; the height is then that at the vector of the caller. -/
theorem C129_wrong_length_fails (m : Brent S K) (rnd : Nat → K) (fuel n : Nat) (order : List K → Outcome (List K))
    (ord : List K → List K) (hord : ∀ v, order v = ok (ord v)) (veff : List K → K) (vcrit solV : List K)
    (h0 : solV ≠ []) (hsol : solV.length ≠ vcrit.length)
    (hn : n ≤ fuel) (h20 : (foundFrom m rnd n).length = 20) (hmin : ∀ j < n, (foundFrom m rnd j).length < 20) :
    findLine m rnd fuel order veff vcrit solV = ok (some (solV ++
      [veff (ord solV) - min (veff ((ord vcrit).map fun _ => 0)) (veff (ord vcrit))])) := by
  have ht := (C129_tries m rnd fuel (foundFrom m rnd n)).2 ⟨n, hn, rfl, h20, hmin⟩
  cases hl : foundFrom m rnd n with
  | nil => rw [hl] at h20; cases h20
  | cons first rest =>
    rw [hl] at ht
    unfold findLine
    rw [ht]
    have hp : position (choose first rest).1 vcrit solV = solV := by
      unfold position
      rw [if_pos ⟨by simpa using h0, hsol⟩]
    simp only [hp, hord, bind_ok]

/-- An algorithm that halves its interval around one half; it converges from every guess after 14 iterations. -/
def halving : Brent ℚ ℚ :=
  ⟨fun g => (1, 0), fun s => (s / 2, 0), fun s => 1 / 2 - s / 2, fun s => 1 / 2 + s / 2, fun _ => 1 / 2, fun s => s⟩

example : tries halving (fun _ => 1 / 3) 20 0 [] = some (List.replicate 20 (1 / 2, 1 / 16384)) := by
  decide +kernel

/-- An algorithm that fails at once, as that of GSL does if nothing is enclosed. -/
example : ∀ n, (foundFrom (⟨fun g => (g, 4), fun s => (s, -1), id, id, id, id⟩ : Brent ℚ ℚ) (fun _ => 0) n).length < 20 := by
  intro n
  unfold foundFrom
  rw [List.filterMap_eq_nil_iff.2]
  · simp
  · intro k _
    refine found_none _ _ fun n hn => ?_
    exact absurd (hn.2.2.1 0 hn.1) (by simp [after])

end Verif.Wall.Search
