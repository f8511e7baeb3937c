import Verif.Utility.Lemmas
import Mathlib.Algebra.Ring.Defs

/-!
# Properties of the utility functions (C05, C07, C08, C09)
-/

namespace Verif.Utility

open Outcome Spec

/-! ## C05: splitting a string loses nothing -/

/-- The pieces contain no delimiter. -/
theorem C05_pieces_have_no_delimiter (s : List Char) (d : Char) :
    ∀ t ∈ split s d, d ∉ t := by
  induction hn : s.length using Nat.strongRecOn generalizing s with
  | ind n ih =>
    rcases exists_token d s with h | ⟨t, rest, h, rfl⟩
    · by_cases hs : s = []
      · subst hs; simp [split_nil]
      · rw [split_single h hs]; simpa using h
    · rw [split_append h]
      intro u hu
      rcases List.mem_cons.1 hu with rfl | hu
      · exact h
      · exact ih rest.length (by simp at hn; omega) rest rfl u hu

/-- Joining the pieces gives the string back; if the string ends with the delimiter, that last
delimiter is the only character that is lost. -/
theorem C05_join_of_split (s : List Char) (d : Char) :
    (s.getLast? = some d → join d (split s d) ++ [d] = s) ∧
    (s.getLast? ≠ some d → join d (split s d) = s) := by
  induction hn : s.length using Nat.strongRecOn generalizing s with
  | ind n ih =>
    rcases exists_token d s with h | ⟨t, rest, h, rfl⟩
    · by_cases hs : s = []
      · subst hs; simp [split_nil, join]
      · rw [split_single h hs]
        refine ⟨fun hl => absurd (List.mem_of_getLast? hl) h, fun _ => rfl⟩
    · rw [split_append h]
      by_cases hr : rest = []
      · subst hr
        simp [split_nil, join]
      · have hne : split rest d ≠ [] := by
          cases rest with
          | nil => exact absurd rfl hr
          | cons c r => rw [split_eq]; simp
        rw [join_cons d t hne]
        have hl : (t ++ d :: rest).getLast? = rest.getLast? := by
          rw [List.getLast?_append]
          cases rest with
          | nil => exact absurd rfl hr
          | cons c r =>
            rw [List.getLast?_cons_cons]
            cases hh : (c :: r).getLast? with
            | none => simp at hh
            | some x => rfl
        rw [hl]
        have ihr := ih rest.length (by simp at hn; omega) rest rfl
        refine ⟨fun hh => ?_, fun hh => ?_⟩
        · have := ihr.1 hh
          rw [List.append_assoc, List.cons_append, this]
        · rw [ihr.2 hh]

/-- Conversely the pieces are exactly the fields that were written: a non-empty list of
delimiter-free fields terminated by a delimiter is read back as that list ... -/
theorem C05_split_of_join_terminated (l : List (List Char)) (d : Char) (hne : l ≠ [])
    (hfree : ∀ t ∈ l, d ∉ t) : split (join d l ++ [d]) d = l := by
  induction l with
  | nil => exact absurd rfl hne
  | cons t l ih =>
    by_cases hl : l = []
    · subst hl
      simp only [join]
      rw [split_append (hfree t (by simp)), split_nil]
    · rw [join_cons d t hl, List.append_assoc, List.cons_append,
        split_append (hfree t (by simp)), ih hl (fun u hu => hfree u (by simp [hu]))]

/-- ... and so is a list whose last field is not empty, without the terminating delimiter. -/
theorem C05_split_of_join (l : List (List Char)) (d : Char)
    (hlast : l.getLast? ≠ some []) (hfree : ∀ t ∈ l, d ∉ t) : split (join d l) d = l := by
  induction l with
  | nil => simp [join, split_nil]
  | cons t l ih =>
    by_cases hl : l = []
    · subst hl
      simp only [join]
      exact split_single (hfree t (by simp)) (by simpa using hlast)
    · rw [join_cons d t hl, split_append (hfree t (by simp)),
        ih ?_ (fun u hu => hfree u (by simp [hu]))]
      cases l with
      | nil => exact absurd rfl hl
      | cons u l => simpa [List.getLast?_cons_cons] using hlast

/-- What is printed for a vector (`operator<<`) is its fields joined with tabs, so reading the line
back with `split` gives the fields (when the last one is not empty). -/
theorem C05_print_then_split (l : List (List Char))
    (hlast : l.getLast? ≠ some []) (hfree : ∀ t ∈ l, '\t' ∉ t) :
    split (printVec l) '\t' = l := by
  have : ∀ l, printVec l = join '\t' l := by
    intro l
    induction l with
    | nil => rfl
    | cons t l ih => cases l with
      | nil => rfl
      | cons u l => simp only [printVec, join]; rw [ih]
  rw [this]
  exact C05_split_of_join l '\t' hlast hfree

example : split "a\t\tbc\t".toList '\t' = ["a".toList, [], "bc".toList] := by
  have h : "a\t\tbc\t".toList = join '\t' ["a".toList, [], "bc".toList] ++ ['\t'] := by decide
  rw [h]
  exact C05_split_of_join_terminated _ _ (by simp) (by decide)

example : (["a".toList, [], "bc".toList] : List (List Char)).getLast? ≠ some [] ∧
    ∀ t ∈ (["a".toList, [], "bc".toList] : List (List Char)), '\t' ∉ t := by decide

/-- Prefix test: true iff the string is `pre` followed by something. -/
theorem C05_startsWith (s pre : List Char) :
    stringStartsWith s pre = true ↔ ∃ r, s = pre ++ r := by
  unfold stringStartsWith
  rw [Bool.and_eq_true, List.isPrefixOf_iff_prefix]
  constructor
  · rintro ⟨_, r, rfl⟩; exact ⟨r, rfl⟩
  · rintro ⟨r, rfl⟩; exact ⟨by simp, r, rfl⟩

/-- Suffix test: true iff the string is something followed by `suf`. -/
theorem C05_endsWith (s suf : List Char) :
    stringEndsWith s suf = true ↔ ∃ r, s = r ++ suf := by
  unfold stringEndsWith
  rw [Bool.and_eq_true, beq_iff_eq, decide_eq_true_iff]
  constructor
  · rintro ⟨_, h⟩
    exact ⟨s.take (s.length - suf.length), by
      conv => lhs; rw [← List.take_append_drop (s.length - suf.length) s, h]⟩
  · rintro ⟨r, rfl⟩
    simp

/-! ## C07: transpose -/

variable {α : Type}

/-- A rectangular matrix with at least one row is transposed exactly: `c` rows of length `r` and
entry `(j,i)` of the result is entry `(i,j)` of the argument. -/
theorem C07_transpose (A : List (List α)) (r c : Nat) (hr : 0 < r) (hA : IsMatrix A r c) :
    ∃ B, transpose A = ok B ∧ IsMatrix B c r ∧
      ∀ i j, i < r → j < c → (B[j]?.bind (·[i]?)) = (A[i]?.bind (·[j]?)) := by
  obtain ⟨hlen, hrow⟩ := hA
  cases A with
  | nil => simp at hlen; omega
  | cons row0 A' =>
    have h0 : row0.length = c := hrow row0 (by simp)
    by_cases hc : c = 0
    · refine ⟨[], ?_, ⟨by simp [hc], by simp⟩, ?_⟩
      · simp only [transpose, h0, hc]; rfl
      · intro i j _ hj; omega
    · -- a default element is available because there is a non-empty row
      obtain ⟨x0⟩ : Nonempty α := by
        cases row0 with
        | nil => simp at h0; omega
        | cons x _ => exact ⟨x⟩
      have hin : ∀ j, j < c → ((row0 :: A').mapM fun row => idx row j) =
          ok ((row0 :: A').map fun row => (row[j]?).getD x0) := by
        intro j hj
        apply mapM_ok
        intro row hmem
        have : j < row.length := by rw [hrow row hmem]; exact hj
        simp [idx_of_lt this, List.getElem?_eq_getElem this]
      refine ⟨(List.range c).map fun j => (row0 :: A').map fun row => (row[j]?).getD x0, ?_, ?_, ?_⟩
      · simp only [transpose, h0]
        exact mapM_ok fun j hj => hin j (List.mem_range.1 hj)
      · refine ⟨by simp, ?_⟩
        intro row hmem
        obtain ⟨j, _, rfl⟩ := List.mem_map.1 hmem
        simpa using hlen
      · intro i j hi hj
        have hi' : i < (row0 :: A').length := by omega
        have hj' : j < ((row0 :: A')[i]).length := by
          rw [hrow _ (List.getElem_mem hi')]; exact hj
        rw [List.getElem?_map, List.getElem?_range hj, Option.map_some, Option.bind_some,
          List.getElem?_map, List.getElem?_eq_getElem hi', Option.map_some, Option.bind_some,
          List.getElem?_eq_getElem hj', Option.getD_some]

/-- Transposing twice gives the matrix back, if there is at least one row and one column. -/
theorem C07_transpose_twice (A : List (List α)) (r c : Nat) (hr : 0 < r) (hc : 0 < c)
    (hA : IsMatrix A r c) : (transpose A >>= transpose) = ok A := by
  obtain ⟨B, hB, hBm, hBi⟩ := C07_transpose A r c hr hA
  obtain ⟨C, hC, hCm, hCi⟩ := C07_transpose B c r hc hBm
  rw [hB, bind_ok, hC]
  congr 1
  apply List.ext_getElem?
  intro i
  by_cases hi : i < r
  · have h1 : i < C.length := by rw [hCm.1]; exact hi
    have h2 : i < A.length := by rw [hA.1]; exact hi
    rw [List.getElem?_eq_getElem h1, List.getElem?_eq_getElem h2]
    congr 1
    apply List.ext_getElem?
    intro j
    by_cases hj : j < c
    · have e1 := hCi j i hj hi
      have e2 := hBi i j hi hj
      rw [List.getElem?_eq_getElem h1] at e1
      rw [List.getElem?_eq_getElem h2] at e2
      simpa using e1.trans e2
    · have l1 : (C[i]).length = c := hCm.2 _ (List.getElem_mem h1)
      have l2 : (A[i]).length = c := hA.2 _ (List.getElem_mem h2)
      rw [List.getElem?_eq_none (by omega), List.getElem?_eq_none (by omega)]
  · rw [List.getElem?_eq_none (by rw [hCm.1]; omega),
      List.getElem?_eq_none (by rw [hA.1]; omega)]

example : IsMatrix [[1, 2, 3], [4, 5, 6]] 2 3 ∧ (0 < 2) ∧ (0 < 3) := by
  simp [IsMatrix]

example : transpose [[1, 2, 3], [4, 5, 6]] = ok [[1, 4], [2, 5], [3, 6]] := by decide

/-- The out-of-bounds half of C07 is false of the code: some later row being shorter than the first
row makes the read undefined – and this is exactly when it is. -/
theorem C07_ragged_is_undefined (A : List (List α)) (row0 : List α) (rest : List (List α))
    (hA : A = row0 :: rest) :
    transpose A = ub .outOfBounds ↔ ∃ row ∈ A, row.length < row0.length := by
  subst hA
  have key : ∀ (l : List (List α)) (j : Nat),
      (∃ r, (l.mapM fun row => idx row j) = ok r ∧ ∀ row ∈ l, j < row.length) ∨
      ((l.mapM fun row => idx row j) = ub .outOfBounds ∧ ∃ row ∈ l, row.length ≤ j) := by
    intro l j
    induction l with
    | nil => left; exact ⟨[], rfl, by simp⟩
    | cons a l ih =>
      rw [List.mapM_cons]
      by_cases ha : j < a.length
      · rw [idx_of_lt ha, bind_ok]
        rcases ih with ⟨r, hr, h⟩ | ⟨hr, row, hm, h⟩
        · left; rw [hr]
          refine ⟨_, rfl, ?_⟩
          intro row hrow
          rcases List.mem_cons.1 hrow with rfl | hrow
          · exact ha
          · exact h row hrow
        · right; rw [hr]; exact ⟨rfl, row, by simp [hm], h⟩
      · right
        rw [idx_of_ge (by omega)]
        exact ⟨rfl, a, by simp, by omega⟩
  have key2 : ∀ (js : List Nat),
      (∃ r, (js.mapM fun j => (row0 :: rest).mapM fun row => idx row j) = ok r ∧
        ∀ j ∈ js, ∀ row ∈ row0 :: rest, j < row.length) ∨
      ((js.mapM fun j => (row0 :: rest).mapM fun row => idx row j) = ub .outOfBounds ∧
        ∃ j ∈ js, ∃ row ∈ row0 :: rest, row.length ≤ j) := by
    intro js
    induction js with
    | nil => left; exact ⟨[], rfl, by simp⟩
    | cons j js ih =>
      rw [List.mapM_cons]
      rcases key (row0 :: rest) j with ⟨r, hr, h⟩ | ⟨hr, h⟩
      · rw [hr, bind_ok]
        rcases ih with ⟨r', hr', h'⟩ | ⟨hr', j', hj', h'⟩
        · left; rw [hr']
          refine ⟨_, rfl, ?_⟩
          intro i hi
          rcases List.mem_cons.1 hi with rfl | hi
          · exact h
          · exact h' i hi
        · right; rw [hr']; exact ⟨rfl, j', by simp [hj'], h'⟩
      · right; rw [hr]; exact ⟨rfl, j, by simp, h⟩
  rcases key2 (List.range row0.length) with ⟨r, hr, h⟩ | ⟨hr, j, hj, row, hrow, h⟩
  · simp only [transpose, hr]
    constructor
    · intro hh; simp at hh
    · rintro ⟨row, hrow, hlt⟩
      have := h row.length (List.mem_range.2 hlt) row hrow
      omega
  · simp only [transpose, hr, true_iff]
    have := List.mem_range.1 hj
    exact ⟨row, hrow, by omega⟩

/-- Concrete refutation of the memory-safety half of C07. -/
theorem C07_not_memory_safe : transpose [[1, 2], [3]] = ub .outOfBounds := by decide

/-- `Transpose` is not an involution on matrices without rows or columns. -/
theorem C07_degenerate :
    transpose ([] : List (List Nat)) = ok [[]] ∧
    (transpose ([[], []] : List (List Nat)) >>= transpose) = ok [[]] := by decide

/-! ## C08: vector arithmetic -/

/-- Addition: element-wise for equal lengths, an exception otherwise. -/
theorem C08_add [Add α] (a b : List α) :
    (a.length = b.length → ∃ c, vadd a b = ok c ∧ c.length = a.length ∧
      ∀ i : Nat, c[i]? = (a[i]?).bind fun x => (b[i]?).map fun y => x + y) ∧
    (a.length ≠ b.length → vadd a b = err .runtime) := by
  refine ⟨fun h => ⟨List.zipWith (· + ·) a b, by simp [vadd, h], by simp [h], ?_⟩,
    fun h => by simp [vadd, h]⟩
  intro i
  rw [List.getElem?_zipWith]
  cases a[i]? <;> cases b[i]? <;> rfl

/-- Subtraction: element-wise for equal lengths, a thrown string otherwise. -/
theorem C08_sub [Sub α] (a b : List α) :
    (a.length = b.length → ∃ c, vsub a b = ok c ∧ c.length = a.length ∧
      ∀ i : Nat, c[i]? = (a[i]?).bind fun x => (b[i]?).map fun y => x - y) ∧
    (a.length ≠ b.length → vsub a b = err .cstring) := by
  refine ⟨fun h => ⟨List.zipWith (· - ·) a b, by simp [vsub, h], by simp [h], ?_⟩,
    fun h => by simp [vsub, h]⟩
  intro i
  rw [List.getElem?_zipWith]
  cases a[i]? <;> cases b[i]? <;> rfl

/-- Scaling and division by a scalar act on every element. -/
theorem C08_scale [Mul α] [Div α] (s : α) (a : List α) :
    (∀ i : Nat, (smul s a)[i]? = (a[i]?).map fun x => s * x) ∧
    (∀ i : Nat, (sdiv a s)[i]? = (a[i]?).map fun x => x / s) := by
  constructor <;> intro i <;> simp [smul, sdiv]

/-- Dot product: the sum of the products for equal lengths, a thrown string otherwise.  The sum is
characterised by its recursion over the vectors. -/
theorem C08_dot {K : Type} [Semiring K] (a b : List K) :
    (a.length = b.length → dot a b = ok ((List.range a.length).map fun i =>
      a.getD i 0 * b.getD i 0).sum) ∧
    (a.length ≠ b.length → dot a b = err .cstring) := by
  have hfold : ∀ (l : List K) (x : K), l.foldl (· + ·) x = x + l.sum := by
    intro l
    induction l with
    | nil => simp
    | cons y l ih => intro x; simp [ih, add_assoc]
  refine ⟨fun h => ?_, fun h => by simp [dot, h]⟩
  simp only [dot, h, ne_eq, not_true_eq_false, if_false, hfold, zero_add]
  congr 2
  apply List.ext_getElem?
  intro i
  rw [List.getElem?_zipWith]
  by_cases hi : i < a.length
  · have hi' : i < b.length := by omega
    simp [hi, hi']
  · rw [List.getElem?_eq_none (by omega), List.getElem?_eq_none (by omega)]
    rw [List.getElem?_eq_none (by simp; omega)]

/-- Matrix times vector: every entry is the dot product of a row with the vector, but only square
shapes are accepted: a matrix with `r` rows of length `c` and a vector of length `c ≠ r` – a
perfectly legal product – raises an error. -/
theorem C08_matVec {K : Type} [Semiring K] (A : List (List K)) (b : List K) (r c : Nat)
    (hA : IsMatrix A r c) (hb : b.length = c) :
    (r = c → ∃ y, matVec A b = ok y ∧ y.length = r ∧
      ∀ (i : Nat) row, A[i]? = some row → (y[i]?).map ok = some (dot row b)) ∧
    (r ≠ c → matVec A b = err .cstring) := by
  obtain ⟨hl, hrow⟩ := hA
  refine ⟨fun h => ?_, fun h => by simp [matVec, hl, hb, h]⟩
  have hd : ∀ row ∈ A, dot row b =
      ok (((List.range row.length).map fun i => row.getD i 0 * b.getD i 0).sum) := fun row hm =>
    (C08_dot row b).1 (by rw [hrow row hm, hb])
  have hm := mapM_ok (l := A) hd
  refine ⟨_, by simp only [matVec, hl, hb, h, ne_eq, not_true_eq_false, if_false]; exact hm,
    by simp [hl], ?_⟩
  intro i row hi
  have hmem : row ∈ A := List.mem_of_getElem? hi
  simp only [List.getElem?_map, hi, Option.map_some]
  rw [hd row hmem]

example : IsMatrix [[1, 2], [3, 4]] 2 2 ∧ matVec [[1, 2], [3, 4]] [5, 6] = ok [(17 : Int), 39] := by
  constructor
  · simp [IsMatrix]
  · decide

/-- The part of C08 that is false: a correctly dimensioned 1×2 matrix times 2-vector is refused. -/
theorem C08_nonsquare_product_refused : matVec [[(1 : Int), 2]] [5, 6] = err .cstring := by decide

/-- Flattening concatenates the rows in order. -/
theorem C08_flatten (A : List (List α)) (i j : Nat) (row : List α) (x : α)
    (hi : A[i]? = some row) (hj : row[j]? = some x) :
    (flatten A)[((A.take i).map List.length).sum + j]? = some x ∧
    (flatten A).length = (A.map List.length).sum := by
  have hfold : ∀ (l : List (List α)) (acc : List α),
      l.foldl (fun acc row => acc ++ row) acc = acc ++ l.flatten := by
    intro l
    induction l with
    | nil => simp
    | cons y l ih => intro x; simp [ih]
  have hf : flatten A = A.flatten := by simp [flatten, hfold]
  rw [hf]
  refine ⟨?_, by simp [List.length_flatten]⟩
  have hlt : i < A.length := by
    rcases Nat.lt_or_ge i A.length with h | h
    · exact h
    · rw [List.getElem?_eq_none h] at hi; exact absurd hi (by simp)
  have e : A = A.take i ++ row :: A.drop (i + 1) := by
    have : A[i] = row := by rw [List.getElem?_eq_getElem hlt] at hi; simpa using hi
    rw [← this, List.getElem_cons_drop, List.take_append_drop]
  have hjl : j < row.length := by
    rcases Nat.lt_or_ge j row.length with h | h
    · exact h
    · rw [List.getElem?_eq_none h] at hj; exact absurd hj (by simp)
  have ef : A.flatten = (A.take i).flatten ++ (row ++ (A.drop (i + 1)).flatten) := by
    conv => lhs; rw [e]
    simp
  rw [ef, List.getElem?_append_right (by rw [List.length_flatten]; omega), List.length_flatten,
    Nat.add_sub_cancel_left, List.getElem?_append_left hjl, hj]

/-! ## C09: factorial -/

/-- On a stack with room for the recursion (13 frames suffice) `factorial n` is `n!` when `n!` fits
in an `int`, i.e. for `n ≤ 12`; for every other argument – negative, or with a factorial above
`INT_MAX` – the call is undefined, whatever the stack size. -/
theorem C09_factorial (n : Int) (fuel : Nat) (hf : 12 < fuel) :
    (∀ k : Nat, n = k → fact k ≤ 2147483647 → factorial fuel n = ok (fact k : Int)) ∧
    ((n < 0 ∨ ∃ k : Nat, n = k ∧ 2147483647 < fact k) → ∃ u, factorial fuel n = ub u) := by
  refine ⟨?_, ?_⟩
  · rintro k rfl hk
    have : k ≤ 12 := by
      rcases Nat.lt_or_ge 12 k with h | h
      · have := fact_ge_13 k h; omega
      · exact h
    exact factorial_small k fuel this (by omega)
  · rintro (h | ⟨k, rfl, hk⟩)
    · exact factorial_neg fuel n h
    · rcases factorial_ok_or_ub fuel (k : Int) with ⟨r, hr⟩ | h
      · exfalso
        -- a returned value would be the factorial and fit in an int
        have hval := factorial_ok fuel k r hr
        have hk13 : 13 ≤ k := by
          rcases Nat.lt_or_ge k 13 with h | h
          · have := fact_le_12 k (by omega); omega
          · exact h
        obtain ⟨f, rfl⟩ : ∃ f, fuel = f + 1 := ⟨fuel - 1, by omega⟩
        rw [factorial, if_neg (by omega)] at hr
        rcases int32_cases ((k : Int) - 1) with ⟨h1, _⟩ | ⟨h1, _⟩
        · rw [h1, bind_ok] at hr
          cases hq : factorial f ((k : Int) - 1) with
          | ok q =>
            rw [hq, bind_ok, int32_ok] at hr
            have := hr.2.2
            rw [hr.1, hval] at this
            omega
          | err e => rw [hq] at hr; simp at hr
          | ub u => rw [hq] at hr; simp at hr
        · rw [h1] at hr; simp at hr
      · exact h

example : (∃ k : Nat, (12 : Int) = k ∧ fact k ≤ 2147483647) ∧ (∃ k : Nat, (13 : Int) = k ∧
    2147483647 < fact k) := ⟨⟨12, rfl, by decide⟩, ⟨13, rfl, by decide⟩⟩

end Verif.Utility
