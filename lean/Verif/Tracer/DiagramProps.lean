import Verif.Tracer.Diagram
import Verif.Models.Props
import Mathlib.Algebra.Order.Floor.Ring
import Mathlib.Algebra.Order.Field.Rat
import Mathlib.Data.Rat.Floor
import Mathlib.Tactic.Linarith
import Mathlib.Tactic.FieldSimp
import Mathlib.Tactic.Ring
import Mathlib.Tactic.NormNum
import Mathlib.Tactic.Positivity

/-!
# The diagram of the phases and the change of coordinates (C133)
-/

set_option linter.unusedVariables false
set_option linter.unusedSectionVars false
set_option linter.unusedSimpArgs false

namespace Verif.Tracer.Diagram

open Outcome
open Models (Class minimizeOrderVEV)
open Models.Spec (IsEmbedding)

/-! ## Change of coordinates -/

/-- Taking the coordinates of the minimiser out of the vector of all fields undoes their embedding. -/
theorem C133_round_trip {α : Type} [Zero α] (n : Nat) (order : List Nat) (v w : List α)
    (hv : v.length = order.length) (h : IsEmbedding n order v w) (hr : ∀ o ∈ order, o < n) :
    convertToVEVDim order w = ok v := by
  obtain ⟨h1, h2, h3⟩ := h
  unfold convertToVEVDim
  rw [mapM_ok (g := fun i => w.getD i 0)]
  · congr 1
    refine List.ext_getElem (by simp [hv]) ?_
    intro k hk1 hk2
    rw [List.getElem_map]
    have hk : k < order.length := by simpa using hk1
    have := h2 k order[k] v[k] (List.getElem?_eq_getElem hk) (List.getElem?_eq_getElem hk2)
    rw [List.getD_eq_getElem?_getD, this]
    rfl
  · intro o ho
    have : o < w.length := by rw [h1]; exact hr o ho
    rw [at'_of_lt this]
    simp [List.getElem?_eq_getElem this]

/-- In particular for all models but the standard model, whatever the values. -/
theorem C133_models {α : Type} [Zero α] (cb : Bool) (c : Class) (hc : c ≠ .sm) (v : List α)
    (hv : v.length = (c.vevOrder cb).length) :
    ∃ w, minimizeOrderVEV c.nHiggs (c.vevOrder cb) v = ok w ∧ w.length = c.nHiggs ∧
      convertToVEVDim (c.vevOrder cb) w = ok v := by
  obtain ⟨w, h1, h2⟩ := Models.C33_models_partial cb c hc v (by omega)
  refine ⟨w, h1, h2.1, C133_round_trip c.nHiggs _ v w hv h2 ?_⟩
  intro o ho
  cases c <;> cases cb <;> simp [Class.vevOrder, Class.nHiggs] at * <;> omega

/-- A point with too few fields raises an exception. -/
theorem C133_short_point {α : Type} (order : List Nat) (w : List α) (h : ∃ o ∈ order, w.length ≤ o) :
    convertToVEVDim order w = err .outOfRange := by
  unfold convertToVEVDim
  induction order with
  | nil => obtain ⟨o, ho, _⟩ := h; cases ho
  | cons a l ih =>
    rw [List.mapM_cons]
    by_cases ha : a < w.length
    · rw [at'_of_lt ha, bind_ok, ih]
      · rfl
      · obtain ⟨o, ho, hl⟩ := h
        rcases List.mem_cons.1 ho with rfl | ho
        · omega
        · exact ⟨o, ho, hl⟩
    · rw [at'_of_ge (by omega)]
      rfl

/-! ## The bars -/

section

variable {K : Type} [Field K] [LinearOrder K] [IsStrictOrderedRing K] [FloorRing K]

/-- The bar of a phase has as many characters as the diagram is wide.  A character is a dot exactly if the
phase reaches into the piece of the range of temperatures that the character stands for. -/
theorem C133_bar (size : ℕ) (low high a b : K) (h0 : 0 < size) (h1 : low ≤ a) (h2 : a ≤ b) (h3 : b ≤ high)
    (h4 : low < high) :
    ∃ s, bar (size : ℤ) low high a b = ok s ∧ s.length = size ∧
      ∀ i, i < size → s[i]? = some (if a < low + (i + 1) * ((high - low) / size) ∧
        low + i * ((high - low) / size) < b then '.' else ' ') := by
  have hd : 0 < high - low := by linarith
  have hsz : (0 : K) < size := by exact_mod_cast h0
  set A : K := ((size : ℤ) : K) * (a - low) / (high - low) with hA
  set B : K := ((size : ℤ) : K) * (high - b) / (high - low) with hB
  have hcast : ((size : ℤ) : K) = (size : K) := by norm_cast
  have hA0 : 0 ≤ A := by
    rw [hA, hcast]
    have : 0 ≤ a - low := by linarith
    positivity
  have hB0 : 0 ≤ B := by
    rw [hB, hcast]
    have : 0 ≤ high - b := by linarith
    positivity
  have hAB : A + B ≤ size := by
    rw [hA, hB, hcast, ← add_div, div_le_iff₀ hd]
    nlinarith
  have f1 : 0 ≤ ⌊A⌋ := Int.floor_nonneg.2 hA0
  have f2 : 0 ≤ ⌊B⌋ := Int.floor_nonneg.2 hB0
  have f3 : ⌊A⌋ + ⌊B⌋ ≤ (size : ℤ) := by
    have e1 := Int.floor_le A
    have e2 := Int.floor_le B
    have : ((⌊A⌋ + ⌊B⌋ : ℤ) : K) ≤ ((size : ℤ) : K) := by push_cast; linarith
    exact_mod_cast this
  obtain ⟨p, hp⟩ := Int.eq_ofNat_of_zero_le f1
  obtain ⟨q, hq⟩ := Int.eq_ofNat_of_zero_le f2
  obtain ⟨r, hr⟩ := Int.eq_ofNat_of_zero_le (show 0 ≤ (size : ℤ) - ⌊A⌋ - ⌊B⌋ by omega)
  have hb : bar (size : ℤ) low high a b =
      ok (List.replicate p ' ' ++ List.replicate r '.' ++ List.replicate q ' ') := by
    unfold bar cells fill
    dsimp only
    rw [← hA, ← hB, hr, hp, hq]
    rw [if_neg (by omega), if_neg (by omega), if_neg (by omega)]
    rfl
  refine ⟨_, hb, by simp; omega, ?_⟩
  intro i hi
  have c1 : (a < low + (i + 1) * ((high - low) / size)) ↔ p ≤ i := by
    have : p ≤ i ↔ ⌊A⌋ < (i : ℤ) + 1 := by rw [hp]; omega
    rw [this, Int.floor_lt, hA, hcast, div_lt_iff₀ hd]
    push_cast
    rw [← sub_lt_iff_lt_add', mul_div_assoc', lt_div_iff₀ hsz]
    constructor <;> intro h <;> linarith
  have c2 : (low + i * ((high - low) / size) < b) ↔ i < p + r := by
    have : i < p + r ↔ ⌊B⌋ < (size : ℤ) - i := by omega
    rw [this, Int.floor_lt, hB, hcast, div_lt_iff₀ hd]
    push_cast
    rw [← lt_sub_iff_add_lt', mul_div_assoc', div_lt_iff₀ hsz]
    constructor <;> intro h <;> nlinarith
  simp only [c1, c2]
  by_cases hpi : p ≤ i
  · by_cases hir : i < p + r
    · rw [if_pos ⟨hpi, hir⟩, List.getElem?_append_left (by simp; omega), List.getElem?_append_right (by simp; omega)]
      rw [List.getElem?_replicate, if_pos (by simp; omega)]
    · rw [if_neg (fun h => hir h.2), List.getElem?_append_right (by simp; omega)]
      rw [List.getElem?_replicate, if_pos (by simp; omega)]
  · rw [if_neg (fun h => hpi h.1), List.getElem?_append_left (by simp; omega),
      List.getElem?_append_left (by simp; omega), List.getElem?_replicate, if_pos (by omega)]

/-- A phase that begins below the range of the diagram makes it throw. -/
theorem C133_outside (size : ℕ) (low high a b : K) (h0 : 0 < size) (h1 : a < low) (h4 : low < high) :
    bar (size : ℤ) low high a b = err .runtime := by
  have hd : 0 < high - low := by linarith
  have hsz : (0 : K) < size := by exact_mod_cast h0
  have : ⌊((size : ℤ) : K) * (a - low) / (high - low)⌋ < 0 := by
    rw [Int.floor_lt]
    have hcast : ((size : ℤ) : K) = (size : K) := by norm_cast
    rw [hcast, div_lt_iff₀ hd]
    push_cast
    nlinarith
  unfold bar cells fill
  dsimp only
  rw [if_pos this]
  rfl

/-! ## The curves -/

/-- The temperatures of a curve go from the beginning of the phase to its end, in steps of equal size. -/
theorem C133_temperatures (n : ℕ) (a b : K) (h : 0 < n) :
    (temperatures (n : ℤ) a b).length = n + 1 ∧
    (temperatures (n : ℤ) a b).head? = some (.fin a) ∧ (temperatures (n : ℤ) a b).getLast? = some (.fin b) ∧
    ∀ i : ℕ, i ≤ n → (temperatures (n : ℤ) a b)[i]? = some (.fin (a + i * ((b - a) / n))) := by
  have hn : (0 : K) < n := by exact_mod_cast h
  have hne : ¬ ((n : ℤ) = 0) := by omega
  have hl : (temperatures (n : ℤ) a b).length = n + 1 := by simp [temperatures]
  have hi : ∀ i : ℕ, i ≤ n → (temperatures (n : ℤ) a b)[i]? = some (.fin (a + i * ((b - a) / n))) := by
    intro i hin
    unfold temperatures
    rw [List.getElem?_map, List.getElem?_range (by omega)]
    simp only [Option.map_some, if_neg hne]
    congr 3
    push_cast
    field_simp
  refine ⟨hl, ?_, ?_, hi⟩
  · rw [List.head?_eq_getElem?, hi 0 (by omega)]
    simp
  · rw [List.getLast?_eq_getElem?, hl, Nat.add_sub_cancel, hi n (le_refl _)]
    congr 2
    field_simp
    ring

/-- The property fails for a phase that fills no cell, for example one that exists only at the upper end of the
range: its only temperature is not a number. -/
theorem C133_point_fails : temperatures (K := ℚ) (cells (100 : ℤ) (0 : ℚ) 300 300 300).2.1 300 300 = [.nan] := by
  decide +kernel

theorem curves_aux (size : ℤ) (low high : K) (get : Nat → Flt K → Nat → Flt K) (f : Nat) (phases : List (K × K)) :
    ∀ n, n ≤ phases.length → n ≤ 10 → ∃ cs, (List.range n).foldlM (fun cs it => do
      let p ← idx phases it
      let ts := temperatures (cells size low high p.1 p.2).2.1 p.1 p.2
      Ascii.addPlot cs ⟨ts, ts.map fun t => get it t f, "Phase ".toList ++ Nat.toDigits 10 it, marker it⟩) [] = ok cs ∧
      cs.length = n ∧ ∀ (it : Nat) p, it < n → phases[it]? = some p →
        cs[it]? = some ⟨temperatures (cells size low high p.1 p.2).2.1 p.1 p.2,
          (temperatures (cells size low high p.1 p.2).2.1 p.1 p.2).map fun t => get it t f,
          "Phase ".toList ++ Nat.toDigits 10 it, marker it⟩ := by
  intro n
  induction n with
  | zero => intro _ _; exact ⟨[], rfl, rfl, fun it p h => absurd h (by omega)⟩
  | succ n ih =>
    intro h1 h2
    obtain ⟨cs, c1, c2, c3⟩ := ih (by omega) (by omega)
    have hn : n < phases.length := by omega
    rw [List.range_succ, List.foldlM_append, c1, bind_ok, List.foldlM_cons, idx_of_lt hn, bind_ok]
    dsimp only
    rw [Ascii.addPlot, if_pos (by omega), bind_ok]
    refine ⟨_, rfl, by simp [c2], ?_⟩
    intro it p hit hp
    by_cases h : it < n
    · rw [List.getElem?_append_left (by omega)]
      exact c3 it p h hp
    · have : it = n := by omega
      subst this
      rw [List.getElem?_append_right (by omega), c2, Nat.sub_self]
      rw [List.getElem?_eq_getElem hn] at hp
      rw [← Option.some.inj hp]
      rfl

/-- For up to ten phases, each of them gets a curve of its own, with the temperatures of its bar, the values at these
temperatures, its number and its marker. -/
theorem C133_curves (size : ℤ) (low high : K) (get : Nat → Flt K → Nat → Flt K) (f : Nat) (phases : List (K × K))
    (h : phases.length ≤ 10) : ∃ cs, curves size low high get f phases = ok cs ∧ cs.length = phases.length ∧
      ∀ (it : Nat) a b, phases[it]? = some (a, b) → ∃ c, cs[it]? = some c ∧
        c.xs = temperatures (cells size low high a b).2.1 a b ∧ c.ys = c.xs.map (fun t => get it t f) ∧
        c.label = "Phase ".toList ++ Nat.toDigits 10 it ∧ c.marker = marker it := by
  obtain ⟨cs, c1, c2, c3⟩ := curves_aux size low high get f phases phases.length (le_refl _) h
  refine ⟨cs, c1, c2, ?_⟩
  intro it a b hp
  obtain ⟨hlt, -⟩ := List.getElem?_eq_some_iff.1 hp
  exact ⟨_, c3 it (a, b) hlt hp, rfl, rfl, rfl, rfl⟩

/-- The property fails for more than ten phases: the curve is written past the end of an array. -/
theorem C133_eleven_fails (size : ℤ) (low high : K) (get : Nat → Flt K → Nat → Flt K) (f : Nat) (phases : List (K × K))
    (h : 10 < phases.length) : curves size low high get f phases = ub .outOfBounds := by
  obtain ⟨cs, c1, c2, -⟩ := curves_aux size low high get f phases 10 (by omega) (le_refl _)
  unfold curves
  obtain ⟨k, hk⟩ : ∃ k, phases.length = 10 + (1 + k) := ⟨phases.length - 11, by omega⟩
  have e : List.range phases.length = List.range 10 ++ (10 :: (List.range' 11 k)) := by
    rw [hk, List.range_eq_range', ← List.range'_append_1, ← List.range_eq_range', Nat.add_comm 1 k,
      List.range'_succ]
  rw [e, List.foldlM_append, c1, bind_ok, List.foldlM_cons, idx_of_lt (by omega), bind_ok]
  dsimp only
  rw [Ascii.addPlot, if_neg (by omega)]
  rfl

end

/-- The first seven phases have different markers that can be seen. -/
theorem C133_markers (i j : Nat) (hi : i < 7) (hj : j < 7) : (marker i = marker j ↔ i = j) ∧ marker i ≠ ' ' ∧
    marker i ≠ Char.ofNat 0 := by
  have key : ∀ i < 7, ∀ j < 7, (marker i = marker j ↔ i = j) ∧ marker i ≠ ' ' ∧ marker i ≠ Char.ofNat 0 := by decide
  exact key i hi j hj

/-- The eighth has the zero that ends the string of markers. -/
theorem C133_marker_fails : marker 7 = Char.ofNat 0 := by decide

/-- The hypotheses can be met. -/
example : bar (10 : ℤ) (0 : ℚ) 300 30 150 = ok " ....     ".toList := by decide +kernel

end Verif.Tracer.Diagram
