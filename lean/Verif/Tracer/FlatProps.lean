import Verif.Tracer.Flat
import Verif.Tracer.GeometryProps
import Mathlib.Data.List.Nodup
import Mathlib.Tactic.NormNum

/-!
# C123: the search for flat directions
-/

namespace Verif.Tracer.Flat

set_option linter.unusedSectionVars false
set_option linter.unusedSimpArgs false

open Verif.Tracer

variable {n : Nat} {K : Type} [Field K] [LinearOrder K] [IsStrictOrderedRing K]

/-! ### Specification -/

/-- The fields `i`, `j`, `k` have the values `x`, `y`, `z` (a later one wins), all others are 1. -/
def fields (i j k : Fin n) (x y z : K) : Vec n K :=
  fun l => if l = k then z else if l = j then y else if l = i then x else 1

/-- Two numbers agree to eight digits or are both negligible. -/
def Close (a b : K) : Prop :=
  (|a| < 1 / 10 ^ 10 ∧ |b| < 1 / 10 ^ 10) ∨ |a - b| < |a + b| / 2 * (1 / 10 ^ 8)

/-- The potential agrees along a chain through the six orders of the values 2, 100, 200. -/
def Chain3 (V : Vec n K → K) (i j k : Fin n) : Prop :=
  Close (V (fields i j k 2 100 200)) (V (fields i j k 2 200 100)) ∧
  Close (V (fields i j k 100 2 200)) (V (fields i j k 2 200 100)) ∧
  Close (V (fields i j k 100 2 200)) (V (fields i j k 100 200 2)) ∧
  Close (V (fields i j k 200 2 100)) (V (fields i j k 100 200 2)) ∧
  Close (V (fields i j k 200 2 100)) (V (fields i j k 200 100 2))

/-- The potential agrees when 2 and 100 are exchanged. -/
def Swap2 (V : Vec n K → K) (i j : Fin n) : Prop :=
  Close (V (fields i i j 2 2 100)) (V (fields i i j 100 100 2))

/-- The potential agrees at 2 and 100. -/
def Const1 (V : Vec n K → K) (i : Fin n) : Prop :=
  Close (V (fields i i i 2 2 2)) (V (fields i i i 100 100 100))

/-! ### Lemmas -/

theorem same_iff (a b : K) : same a b = true ↔ Close a b := by
  unfold same almostSame Close
  by_cases h : |a| < 1 / 10 ^ 10 ∧ |b| < 1 / 10 ^ 10
  · rw [if_pos h]; simp only [true_iff]; exact Or.inl h
  · rw [if_neg h, decide_eq_true_iff]
    constructor
    · exact Or.inr
    · rintro (h' | h')
      · exact absurd h' h
      · exact h'

/-- All fields are 1 where none of the three directions is meant. -/
def OneOff (i j k : Fin n) (p : Vec n K) : Prop := ∀ l, l ≠ i → l ≠ j → l ≠ k → p l = 1

theorem set3_eq (i j k : Fin n) (p : Vec n K) (hp : OneOff i j k p) (x y z : K) :
    set3 p i j k x y z = fields i j k x y z := by
  funext l
  unfold set3 fields
  by_cases hk : l = k
  · rw [if_pos hk, hk, Function.update_self]
  · rw [if_neg hk, Function.update_of_ne hk]
    by_cases hj : l = j
    · rw [if_pos hj, hj, Function.update_self]
    · rw [if_neg hj, Function.update_of_ne hj]
      by_cases hi : l = i
      · rw [if_pos hi, hi, Function.update_self]
      · rw [if_neg hi, Function.update_of_ne hi]
        exact hp l hi hj hk

theorem oneOff_fields (i j k : Fin n) (x y z : K) : OneOff i j k (fields i j k x y z) := by
  intro l hi hj hk
  simp [fields, hi, hj, hk]

theorem fields_one (i j k : Fin n) : fields i j k (1 : K) 1 1 = fun _ => 1 := by
  funext l
  unfold fields
  split_ifs <;> rfl

theorem probe3_spec (V : Vec n K → K) (i j k : Fin n) :
    OneOff i j k (probe3 V (fun _ => 1) i j k).1 ∧
    ((probe3 V (fun _ => 1) i j k).2 = true ↔ Chain3 V i j k) := by
  have h0 : OneOff i j k (fun _ => (1 : K)) := fun _ _ _ _ => rfl
  unfold probe3 Chain3
  simp only [set3_eq i j k _ h0, set3_eq i j k _ (oneOff_fields i j k _ _ _)]
  simp only [← same_iff]
  split_ifs with h1 h2 h3 h4
  · exact ⟨oneOff_fields _ _ _ _ _ _, by simp only [h1, h2, h3, h4, true_and]⟩
  · exact ⟨oneOff_fields _ _ _ _ _ _, by simp only [h4, Bool.false_eq_true, false_and, and_false]⟩
  · exact ⟨oneOff_fields _ _ _ _ _ _, by simp only [h3, Bool.false_eq_true, false_and, and_false]⟩
  · exact ⟨oneOff_fields _ _ _ _ _ _, by simp only [h2, Bool.false_eq_true, false_and, and_false]⟩
  · exact ⟨oneOff_fields _ _ _ _ _ _, by simp only [h1, Bool.false_eq_true, false_and]⟩

open Classical in
theorem step3_eq (V : Vec n K → K) (s : State n K) (hs : s.point = fun _ => 1)
    (t : Fin n × Fin n × Fin n) :
    step3 V s t = if Chain3 V t.1 t.2.1 t.2.2 then
      ⟨fun _ => 1, fun l => if l = t.2.1 ∨ l = t.2.2 then 0 else s.nonFlat l, true, s.d1, s.d2, s.d3 ++ [t]⟩
      else s := by
  obtain ⟨i, j, k⟩ := t
  have hp := probe3_spec V i j k
  unfold step3
  dsimp only
  rw [hs]
  have e := set3_eq i j k _ hp.1 (1 : K) 1 1
  rw [fields_one] at e
  rw [e]
  by_cases h : Chain3 V i j k
  · rw [if_pos (hp.2.2 h), if_pos h]
    congr 1
    funext l
    simp only [Function.update_apply]
    split_ifs <;> simp_all
  · rw [if_neg (fun h' => h (hp.2.1 h')), if_neg h]
    cases s
    simp_all

theorem set2_fields (i j : Fin n) (p : Vec n K) (hp : OneOff i i j p) (x y : K) :
    set2 p i j x y = fields i i j x x y := by
  rw [← set3_eq i i j p hp]
  simp [set3, set2]

open Classical in
theorem step2_eq (V : Vec n K → K) (s : State n K) (hs : s.point = fun _ => 1) (t : Fin n × Fin n) :
    step2 V s t = if Swap2 V t.1 t.2 then
      ⟨fun _ => 1, fun l => if l = t.2 then 0 else s.nonFlat l, true, s.d1, s.d2 ++ [t], s.d3⟩ else s := by
  obtain ⟨i, j⟩ := t
  have h0 : OneOff i i j (fun _ => (1 : K)) := fun _ _ _ _ => rfl
  unfold step2 Swap2
  dsimp only
  rw [hs]
  simp only [set2_fields i j _ h0, set2_fields i j _ (oneOff_fields i i j _ _ _), fields_one, ← same_iff]
  split_ifs
  · congr 1
    funext l
    simp only [Function.update_apply]
  · cases s
    simp_all

open Classical in
theorem step1_eq (V : Vec n K → K) (s : State n K) (hs : s.point = fun _ => 1) (i : Fin n) :
    step1 V s i = if Const1 V i then
      ⟨fun _ => 1, fun l => if l = i then 0 else s.nonFlat l, true, s.d1 ++ [i], s.d2, s.d3⟩ else s := by
  have h1 : ∀ p : Vec n K, OneOff i i i p → ∀ x, Function.update p i x = fields i i i x x x := by
    intro p hp x
    rw [← set3_eq i i i p hp]
    simp [set3]
  have h0 : OneOff i i i (fun _ => (1 : K)) := fun _ _ _ _ => rfl
  unfold step1 Const1
  dsimp only
  rw [hs]
  simp only [h1 _ h0, h1 _ (oneOff_fields i i i _ _ _), fields_one, ← same_iff]
  split_ifs
  · congr 1
    funext l
    simp only [Function.update_apply]
  · cases s
    simp_all

theorem ite_or (A B : Prop) [Decidable A] [Decidable B] [Decidable (B ∨ A)] (x : Int) :
    (if A then 0 else if B then 0 else x) = if B ∨ A then 0 else x := by
  split_ifs <;> tauto

open Classical in
theorem fold3 (V : Vec n K → K) (l : List (Fin n × Fin n × Fin n)) (s : State n K)
    (hs : s.point = fun _ => 1) :
    l.foldl (step3 V) s =
      ⟨fun _ => 1,
       fun m => if ∃ t ∈ l, Chain3 V t.1 t.2.1 t.2.2 ∧ (m = t.2.1 ∨ m = t.2.2) then 0 else s.nonFlat m,
       s.found || decide (∃ t ∈ l, Chain3 V t.1 t.2.1 t.2.2), s.d1, s.d2,
       s.d3 ++ l.filter fun t => decide (Chain3 V t.1 t.2.1 t.2.2)⟩ := by
  induction l generalizing s with
  | nil => cases s; simp_all
  | cons t l ih =>
    rw [List.foldl_cons, step3_eq V s hs]
    by_cases h : Chain3 V t.1 t.2.1 t.2.2
    · rw [if_pos h, ih _ rfl]
      congr 1
      · funext m
        simp only [List.mem_cons, exists_eq_or_imp, h, true_and]
        rw [ite_or]
      · simp [h]
      · simp [h]
    · rw [if_neg h, ih _ hs]
      simp [h]

open Classical in
theorem fold2 (V : Vec n K → K) (l : List (Fin n × Fin n)) (s : State n K)
    (hs : s.point = fun _ => 1) :
    l.foldl (step2 V) s =
      ⟨fun _ => 1, fun m => if ∃ t ∈ l, Swap2 V t.1 t.2 ∧ m = t.2 then 0 else s.nonFlat m,
       s.found || decide (∃ t ∈ l, Swap2 V t.1 t.2), s.d1,
       s.d2 ++ l.filter fun t => decide (Swap2 V t.1 t.2), s.d3⟩ := by
  induction l generalizing s with
  | nil => cases s; simp_all
  | cons t l ih =>
    rw [List.foldl_cons, step2_eq V s hs]
    by_cases h : Swap2 V t.1 t.2
    · rw [if_pos h, ih _ rfl]
      congr 1
      · funext m
        simp only [List.mem_cons, exists_eq_or_imp, h, true_and]
        rw [ite_or]
      · simp [h]
      · simp [h]
    · rw [if_neg h, ih _ hs]
      simp [h]

open Classical in
theorem fold1 (V : Vec n K → K) (l : List (Fin n)) (s : State n K) (hs : s.point = fun _ => 1) :
    l.foldl (step1 V) s =
      ⟨fun _ => 1, fun m => if ∃ t ∈ l, Const1 V t ∧ m = t then 0 else s.nonFlat m,
       s.found || decide (∃ t ∈ l, Const1 V t), s.d1 ++ l.filter fun t => decide (Const1 V t), s.d2,
       s.d3⟩ := by
  induction l generalizing s with
  | nil => cases s; simp_all
  | cons t l ih =>
    rw [List.foldl_cons, step1_eq V s hs]
    by_cases h : Const1 V t
    · rw [if_pos h, ih _ rfl]
      congr 1
      · funext m
        simp only [List.mem_cons, exists_eq_or_imp, h, true_and]
        rw [ite_or]
      · simp [h]
      · simp [h]
    · rw [if_neg h, ih _ hs]
      simp only [List.mem_cons, exists_eq_or_imp, h, false_and, false_or, List.filter_cons, decide_false,
        Bool.false_eq_true, if_false]

theorem dedupFrom_nodup {α : Type} [DecidableEq α] (a : α) (l : List α) (h : (a :: l).Nodup) :
    dedupFrom a l = a :: l := by
  induction l generalizing a with
  | nil => rfl
  | cons b l ih =>
    rw [dedupFrom, if_neg (by simp at h; tauto), ih b (List.nodup_cons.1 h).2]

theorem dedup_nodup {α : Type} [DecidableEq α] (l : List α) (h : l.Nodup) : dedup l = l := by
  cases l with
  | nil => rfl
  | cons a l => exact dedupFrom_nodup a l h

theorem mem_pairs (t : Fin n × Fin n) : t ∈ pairs n ↔ t.1 < t.2 := by
  obtain ⟨i, j⟩ := t
  simp [pairs, List.mem_flatMap]

theorem mem_triples (t : Fin n × Fin n × Fin n) : t ∈ triples n ↔ t.1 < t.2.1 ∧ t.2.1 ≤ t.2.2 := by
  obtain ⟨i, j, k⟩ := t
  simp [triples, List.mem_flatMap]

theorem nodup_pairs : (pairs n).Nodup := by
  unfold pairs
  rw [List.nodup_flatMap]
  refine ⟨fun i _ => ((List.nodup_finRange n).filter _).map (fun a b h => (Prod.mk.inj h).2), ?_⟩
  refine (List.nodup_finRange n).imp ?_
  intro a b hab x hx hy
  simp only [List.mem_map] at hx hy
  obtain ⟨_, _, rfl⟩ := hx
  obtain ⟨_, _, h⟩ := hy
  exact hab (Prod.mk.inj h).1.symm

theorem nodup_triples : (triples n).Nodup := by
  unfold triples
  rw [List.nodup_flatMap]
  refine ⟨fun i _ => ?_, ?_⟩
  · rw [List.nodup_flatMap]
    refine ⟨fun j _ => ((List.nodup_finRange n).filter _).map
      (fun a b h => (Prod.mk.inj (Prod.mk.inj h).2).2), ?_⟩
    refine ((List.nodup_finRange n).filter _).imp ?_
    intro a b hab x hx hy
    simp only [List.mem_map] at hx hy
    obtain ⟨_, _, rfl⟩ := hx
    obtain ⟨_, _, h⟩ := hy
    exact hab (Prod.mk.inj (Prod.mk.inj h).2).1.symm
  · refine (List.nodup_finRange n).imp ?_
    intro a b hab x hx hy
    simp only [List.mem_flatMap, List.mem_map] at hx hy
    obtain ⟨_, _, _, _, rfl⟩ := hx
    obtain ⟨_, _, _, _, h⟩ := hy
    exact hab (Prod.mk.inj h).1.symm

open Classical in
theorem findFlat_eq (V : Vec n K → K) :
    findFlat V = ⟨fun _ => 1,
      fun m => if ∃ t ∈ List.finRange n, Const1 V t ∧ m = t then 0
        else if ∃ t ∈ pairs n, Swap2 V t.1 t.2 ∧ m = t.2 then 0
        else if ∃ t ∈ triples n, Chain3 V t.1 t.2.1 t.2.2 ∧ (m = t.2.1 ∨ m = t.2.2) then 0 else 1,
      decide (∃ t ∈ triples n, Chain3 V t.1 t.2.1 t.2.2) || decide (∃ t ∈ pairs n, Swap2 V t.1 t.2) ||
        decide (∃ t ∈ List.finRange n, Const1 V t),
      (List.finRange n).filter fun t => decide (Const1 V t),
      (pairs n).filter fun t => decide (Swap2 V t.1 t.2),
      (triples n).filter fun t => decide (Chain3 V t.1 t.2.1 t.2.2)⟩ := by
  unfold findFlat
  dsimp only
  rw [fold3 V _ _ rfl, fold2 V _ _ rfl, fold1 V _ _ rfl]
  simp only [State.init, List.nil_append, Bool.false_or]
  rw [dedup_nodup _ ((List.nodup_finRange n).filter _), dedup_nodup _ (nodup_pairs.filter _),
    dedup_nodup _ (nodup_triples.filter _)]

/-! ### C123 -/

/-- C123: exactly the tuples of directions that pass the tests are stored, each once. -/
theorem C123_stored (V : Vec n K → K) :
    (∀ i, i ∈ (findFlat V).d1 ↔ Const1 V i) ∧
    (∀ i j, (i, j) ∈ (findFlat V).d2 ↔ i < j ∧ Swap2 V i j) ∧
    (∀ i j k, (i, j, k) ∈ (findFlat V).d3 ↔ i < j ∧ j ≤ k ∧ Chain3 V i j k) ∧
    (findFlat V).d1.Nodup ∧ (findFlat V).d2.Nodup ∧ (findFlat V).d3.Nodup := by
  classical
  rw [findFlat_eq]
  refine ⟨fun i => by simp, fun i j => by simp [mem_pairs], fun i j k => by simp [mem_triples, and_assoc],
    (List.nodup_finRange n).filter _, nodup_pairs.filter _, nodup_triples.filter _⟩

/-- C123: a direction is given up exactly if it is flat on its own, the second of a pair or the second or
third of a triple; the flag says whether anything was found. -/
theorem C123_chosen (V : Vec n K → K) (m : Fin n) :
    ((findFlat V).nonFlat m = 0 ∨ (findFlat V).nonFlat m = 1) ∧
    ((findFlat V).nonFlat m = 0 ↔ m ∈ (findFlat V).d1 ∨ (∃ i, (i, m) ∈ (findFlat V).d2) ∨
      (∃ i k, (i, m, k) ∈ (findFlat V).d3) ∨ ∃ i j, (i, j, m) ∈ (findFlat V).d3) ∧
    ((findFlat V).found = true ↔
      (findFlat V).d1 ≠ [] ∨ (findFlat V).d2 ≠ [] ∨ (findFlat V).d3 ≠ []) := by
  classical
  obtain ⟨h1, h2, h3, -⟩ := C123_stored V
  refine ⟨?_, ?_, ?_⟩
  · rw [findFlat_eq]
    dsimp only
    split_ifs <;> simp
  · simp only [h1, h2, h3]
    rw [findFlat_eq]
    dsimp only
    simp only [mem_pairs, mem_triples, List.mem_finRange, true_and]
    split_ifs with a b c
    · obtain ⟨t, ht, rfl⟩ := a
      simp [ht]
    · obtain ⟨t, hlt, ht, rfl⟩ := b
      simp only [true_iff]
      exact Or.inr (Or.inl ⟨t.1, hlt, ht⟩)
    · obtain ⟨t, hlt, ht, e | e⟩ := c
      · simp only [true_iff]
        subst e
        exact Or.inr (Or.inr (Or.inl ⟨t.1, t.2.2, hlt.1, hlt.2, ht⟩))
      · simp only [true_iff]
        subst e
        exact Or.inr (Or.inr (Or.inr ⟨t.1, t.2.1, hlt.1, hlt.2, ht⟩))
    · simp only [one_ne_zero, false_iff]
      rintro (h | ⟨i, h, h'⟩ | ⟨i, k, h, h', h''⟩ | ⟨i, j, h, h', h''⟩)
      · exact a ⟨m, h, rfl⟩
      · exact b ⟨(i, m), h, h', rfl⟩
      · exact c ⟨(i, m, k), ⟨h, h'⟩, h'', Or.inl rfl⟩
      · exact c ⟨(i, j, m), ⟨h, h'⟩, h'', Or.inr rfl⟩
  · rw [findFlat_eq]
    simp only [Bool.or_eq_true, decide_eq_true_iff, ne_eq, List.filter_eq_nil_iff, not_forall,
      not_not, exists_prop]
    constructor
    · rintro ((h | h) | h)
      · exact Or.inr (Or.inr h)
      · exact Or.inr (Or.inl h)
      · exact Or.inl h
    · rintro (h | h | h)
      · exact Or.inr h
      · exact Or.inl (Or.inr h)
      · exact Or.inl (Or.inl h)

theorem close_self (a : K) : Close a a :=
  (same_iff a a).1 ((C17_scalar _ a _ _ (by positivity) (by positivity)).2.1)

/-- C123: a sphere of minima in three fields, i.e. a potential that depends on three fields only through the
sum of their squares, is found, and so are the three circles in it; of the three directions the first is
kept if nothing else is found. -/
theorem C123_sphere (V : Vec n K → K) (i j k : Fin n) (hij : i < j) (hjk : j < k)
    (hrot : ∀ v w : Vec n K, (∀ l, l ≠ i → l ≠ j → l ≠ k → v l = w l) →
      v i ^ 2 + v j ^ 2 + v k ^ 2 = w i ^ 2 + w j ^ 2 + w k ^ 2 → V v = V w) :
    (i, j, k) ∈ (findFlat V).d3 ∧ (i, j) ∈ (findFlat V).d2 ∧ (i, k) ∈ (findFlat V).d2 ∧
    (j, k) ∈ (findFlat V).d2 ∧ (findFlat V).nonFlat j = 0 ∧ (findFlat V).nonFlat k = 0 := by
  obtain ⟨h1, h2, h3, -⟩ := C123_stored V
  have hik := hij.trans hjk
  have key : ∀ x y z x' y' z' : K, x ^ 2 + y ^ 2 + z ^ 2 = x' ^ 2 + y' ^ 2 + z' ^ 2 →
      Close (V (fields i j k x y z)) (V (fields i j k x' y' z')) := by
    intro x y z x' y' z' h
    rw [hrot (fields i j k x y z) (fields i j k x' y' z')]
    · exact close_self _
    · intro l a b c; simp [fields, a, b, c]
    · simp [fields, hij.ne, hjk.ne, hik.ne, h]
  have key2 : ∀ a b : Fin n, (a = i ∨ a = j) → (b = j ∨ b = k) → a < b → Swap2 V a b := by
    intro a b ha hb hab
    unfold Swap2
    rw [hrot (fields a a b 2 2 100) (fields a a b 100 100 2)]
    · exact close_self _
    · intro l h1 h2 h3
      have : l ≠ a := by rcases ha with rfl | rfl <;> assumption
      have : l ≠ b := by rcases hb with rfl | rfl <;> assumption
      simp [fields, *]
    · rcases ha with rfl | rfl <;> rcases hb with rfl | rfl
      · simp [fields, hij.ne, hij.ne', hik.ne, hik.ne', hjk.ne, hjk.ne']; norm_num
      · simp [fields, hij.ne, hij.ne', hik.ne, hik.ne', hjk.ne, hjk.ne']; norm_num
      · exact absurd hab (lt_irrefl _)
      · simp [fields, hij.ne, hij.ne', hik.ne, hik.ne', hjk.ne, hjk.ne']; norm_num
  have e3 : (i, j, k) ∈ (findFlat V).d3 :=
    (h3 i j k).2 ⟨hij, hjk.le, key _ _ _ _ _ _ (by norm_num), key _ _ _ _ _ _ (by norm_num),
      key _ _ _ _ _ _ (by norm_num), key _ _ _ _ _ _ (by norm_num), key _ _ _ _ _ _ (by norm_num)⟩
  refine ⟨e3, (h2 i j).2 ⟨hij, key2 i j (Or.inl rfl) (Or.inl rfl) hij⟩,
    (h2 i k).2 ⟨hik, key2 i k (Or.inl rfl) (Or.inr rfl) hik⟩,
    (h2 j k).2 ⟨hjk, key2 j k (Or.inr rfl) (Or.inr rfl) hjk⟩, ?_, ?_⟩
  · exact ((C123_chosen V j).2.1).2 (Or.inr (Or.inr (Or.inl ⟨i, k, e3⟩)))
  · exact ((C123_chosen V k).2.1).2 (Or.inr (Or.inr (Or.inr ⟨i, j, e3⟩)))

/-- C123: a field on which the potential does not depend is found and given up. -/
theorem C123_independent (V : Vec n K → K) (i : Fin n)
    (h : ∀ v w : Vec n K, (∀ l, l ≠ i → v l = w l) → V v = V w) :
    i ∈ (findFlat V).d1 ∧ (findFlat V).nonFlat i = 0 := by
  have : i ∈ (findFlat V).d1 := by
    refine ((C123_stored V).1 i).2 ?_
    unfold Const1
    rw [h (fields i i i 2 2 2) (fields i i i 100 100 100)]
    · exact close_self _
    · intro l hl; simp [fields, hl]
  exact ⟨this, ((C123_chosen V i).2.1).2 (Or.inl this)⟩

/-- C123: what the log says.  If a field is flat on its own, only such fields are listed. -/
theorem C123_log (V : Vec n K → K) :
    (∀ i, Message.one i ∈ messages (findFlat V) ↔ i ∈ (findFlat V).d1) ∧
    (∀ p, Message.two p ∈ messages (findFlat V) ↔ p ∈ (findFlat V).d2 ∧ (findFlat V).d1 = []) ∧
    (∀ p, Message.three p ∈ messages (findFlat V) ↔
      p ∈ (findFlat V).d3 ∧ (findFlat V).d1 = [] ∧ (findFlat V).d2 = []) ∧
    (∀ l, Message.chosen l ∈ messages (findFlat V) ↔
      (findFlat V).found = true ∧ l = (List.finRange n).map (findFlat V).nonFlat) := by
  by_cases hn : 0 < n
  · have hf := (C123_chosen V ⟨0, hn⟩).2.2
    generalize findFlat V = s at hf ⊢
    unfold messages
    by_cases hs : s.found = true
    · rw [if_pos hs]
      have hs' := hf.1 hs
      by_cases h1 : s.d1 = []
      · by_cases h2 : s.d2 = []
        · have h3 : s.d3 ≠ [] := by tauto
          have h3' := List.length_pos_iff.2 h3
          simp [h1, h2, h3', hs]
        · have h2' := List.length_pos_iff.2 h2
          simp [h1, h2, h2', hs]
      · have h1' := List.length_pos_iff.2 h1
        simp [h1, h1', hs]
    · rw [if_neg hs]
      have : s.d1 = [] ∧ s.d2 = [] ∧ s.d3 = [] := by
        by_contra hc
        exact hs (hf.2 (by tauto))
      simp [this.1, this.2.1, this.2.2, hs]
  · have hn0 : n = 0 := by omega
    subst hn0
    have e : findFlat V = State.init := rfl
    rw [e]
    simp [messages, State.init]

/-- C123 is false of the code: only points at which all other fields are 1 are compared.  A potential that
depends on both of its fields can therefore pass for independent of the first one. -/
theorem C123_background_fails :
    ∃ V : Vec 2 ℚ → ℚ, (0 : Fin 2) ∈ (findFlat V).d1 ∧ (findFlat V).nonFlat 0 = 0 ∧
      V ![1, 2] ≠ V ![0, 2] := by
  refine ⟨fun v => (v 1 - 1) * v 0, ?_, ?_, by norm_num⟩
  · exact ((C123_stored _).1 0).2 (Or.inl (by norm_num [fields]))
  · refine ((C123_chosen _ 0).2.1).2 (Or.inl (((C123_stored _).1 0).2 (Or.inl (by norm_num [fields]))))

/-- C123 is false of the code: the third index starts at the second, so that a potential of two fields can be
reported to have a flat direction in three fields. -/
theorem C123_repeated_index_fails :
    ∃ V : Vec 2 ℚ → ℚ, (0, 1, 1) ∈ (findFlat V).d3 := by
  refine ⟨fun _ => 0, ((C123_stored _).2.2.1 0 1 1).2 ⟨by decide, le_refl _, ?_⟩⟩
  have h : Close (0 : ℚ) 0 := close_self 0
  exact ⟨h, h, h, h, h⟩

/-- C123 is false of the log: a circle of minima is not mentioned if another field is flat on its own. -/
theorem C123_log_fails :
    ∃ V : Vec 3 ℚ → ℚ, (0, 1) ∈ (findFlat V).d2 ∧ Message.two (0, 1) ∉ messages (findFlat V) := by
  refine ⟨fun v => v 0 ^ 2 + v 1 ^ 2, ?_, ?_⟩
  · refine ((C123_stored _).2.1 0 1).2 ⟨by decide, ?_⟩
    unfold Swap2
    right
    norm_num [fields]
  · rw [(C123_log _).2.1]
    rintro ⟨-, h⟩
    have : (2 : Fin 3) ∈ (findFlat fun v : Vec 3 ℚ => v 0 ^ 2 + v 1 ^ 2).d1 := by
      refine (C123_independent _ 2 ?_).1
      intro v w hvw
      simp only [hvw 0 (by decide), hvw 1 (by decide)]
    rw [h] at this
    cases this

/-- The pairs are the ones used when flat directions are removed (C47). -/
theorem C123_pairs_removed (V : Vec n K → K) (p : Fin n × Fin n) :
    p ∈ (findFlat V).d2 ↔ p ∈ flat2D V := by
  obtain ⟨i, j⟩ := p
  rw [(C123_stored V).2.1, Swap2, ← same_iff]
  simp only [flat2D, List.mem_flatMap, List.mem_filterMap, List.mem_finRange, true_and]
  have e : ∀ a b : Fin n, ∀ x y : K, probe2 a b x y = fields a a b x x y := by
    intro a b x y
    funext l
    simp only [probe2, fields]
    split_ifs <;> rfl
  simp only [e]
  constructor
  · intro h
    refine ⟨i, j, ?_⟩
    rw [if_pos]
    exact h
  · rintro ⟨a, b, h⟩
    split_ifs at h with hc
    cases h
    exact hc

/-- Hypotheses of `C123_sphere`. -/
example : ∃ V : Vec 4 ℚ → ℚ, (∀ v w : Vec 4 ℚ, (∀ l, l ≠ 0 → l ≠ 1 → l ≠ 3 → v l = w l) →
    v 0 ^ 2 + v 1 ^ 2 + v 3 ^ 2 = w 0 ^ 2 + w 1 ^ 2 + w 3 ^ 2 → V v = V w) ∧
    (findFlat V).nonFlat 2 = 0 ∧ V ![1, 0, 0, 0] ≠ V ![2, 0, 0, 0] := by
  refine ⟨fun v => v 0 ^ 2 + v 1 ^ 2 + v 3 ^ 2, fun v w _ h => h, ?_, by simp; norm_num⟩
  refine (C123_independent _ 2 ?_).2
  intro v w h
  simp only [h 0 (by decide), h 1 (by decide), h 3 (by decide)]

end Verif.Tracer.Flat
