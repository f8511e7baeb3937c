import Verif.Triple.Model
import Verif.Triple.Spec
import Mathlib.Algebra.Order.BigOperators.Group.Finset
import Mathlib.Algebra.Order.BigOperators.Group.List
import Mathlib.Data.List.Sort
import Mathlib.Data.List.Nodup
import Mathlib.Tactic.Ring
import Mathlib.Tactic.FieldSimp
import Mathlib.Tactic.Positivity

/-!
# Lemmas about the assignment of the mass eigenstates
-/

namespace Verif.Triple

open Spec
open scoped BigOperators

section

variable {K : Type} [Field K] [LinearOrder K] [IsStrictOrderedRing K] {n : Nat} {R : Nat → Nat → K} {i : Nat}

theorem above_false {cols other : List Nat} (h : IsState n R cols i)
    (hd : ∀ j ∈ other, j < n ∧ j ∉ cols) : above R other i = false := by
  unfold above
  have : (other.map fun j => |R i j|).sum = 0 := by
    refine List.sum_eq_zero fun x hx => ?_
    obtain ⟨j, hj, rfl⟩ := List.mem_map.1 hx
    rw [h.fields j (hd j hj).1 (hd j hj).2, abs_zero]
  rw [this]
  simp only [gt_iff_lt, decide_eq_false_iff_not, not_lt]
  positivity

theorem above_true {cols : List Nat} (h : IsState n R cols i) (hn : cols.Nodup) : above R cols i = true := by
  unfold above
  have hle : ∀ j ∈ Finset.range n, R i j ^ 2 ≤ if j ∈ cols then |R i j| else 0 := fun j hj => by
    split_ifs with hc
    · have h1 : R i j ^ 2 ≤ 1 := by
        rw [← h.normalised]
        exact Finset.single_le_sum (f := fun j => R i j ^ 2) (fun _ _ => sq_nonneg _) hj
      have h2 : |R i j| ≤ 1 := by
        rw [← sq_abs] at h1
        exact (sq_le_one_iff₀ (abs_nonneg _)).1 h1
      rw [← sq_abs, sq]
      exact mul_le_of_le_one_left (abs_nonneg _) h2
    · rw [h.fields j (Finset.mem_range.1 hj) hc]
      simp
  have h1 : (1 : K) ≤ (cols.map fun j => |R i j|).sum := by
    rw [← h.normalised]
    refine (Finset.sum_le_sum hle).trans ?_
    rw [← Finset.sum_filter, ← List.sum_toFinset _ hn]
    refine Finset.sum_le_sum_of_subset_of_nonneg (fun j hj => ?_) fun _ _ _ => abs_nonneg _
    exact List.mem_toFinset.2 (Finset.mem_filter.1 hj).2
  have h2 : (1 : K) / 10 ^ 5 < 1 := by
    rw [div_lt_one (by positivity)]
    norm_num
  exact decide_eq_true (h2.trans_le h1)

end

theorem foldl_last {p : Nat → Bool} : ∀ (l : List Nat) (s x : Nat), x ∈ l → p x = true →
    (∀ i ∈ l, p i = true → i = x) → l.foldl (fun pos i => if p i then i else pos) s = x := by
  intro l
  induction l using List.reverseRecOn with
  | nil => intro s x hx; simp at hx
  | append_singleton l a ih =>
    intro s x hx hp hu
    rw [List.foldl_append]
    simp only [List.foldl_cons, List.foldl_nil]
    by_cases ha : p a = true
    · rw [if_pos ha]
      exact hu a (by simp) ha
    · rw [if_neg ha]
      have hxa : x ≠ a := fun e => ha (e ▸ hp)
      refine ih s x ?_ hp fun i hi => hu i (by simp [hi])
      simpa [hxa] using hx

/-- The variable is the only row that passes the test. -/
theorem lastWhere_eq {p : Nat → Bool} {first count x : Nat} (hx : x ∈ List.range' first count) (hp : p x = true)
    (hu : ∀ i ∈ List.range' first count, i ≠ x → p i = false) : lastWhere p first count = x := by
  refine foldl_last _ _ _ hx hp fun i hi h => ?_
  by_contra hne
  rw [hu i hi hne] at h
  exact Bool.noConfusion h

/-- The rows that pass the test, in ascending order. -/
theorem hits_eq {p : Nat → Bool} {first count : Nat} {l : List Nat} (hl : l.Pairwise (· < ·))
    (hm : ∀ i ∈ l, i ∈ List.range' first count ∧ p i = true)
    (hu : ∀ i ∈ List.range' first count, i ∉ l → p i = false) : hits p first count = l := by
  have h1 : (hits p first count).Pairwise (· < ·) := List.Pairwise.filter _ List.pairwise_lt_range'
  refine List.Perm.eq_of_pairwise (le := (· < ·)) ?_ h1 hl ?_
  · intro a b _ _ hab hba
    exact absurd hab (lt_asymm hba)
  · refine (List.perm_ext_iff_of_nodup (h1.imp fun h => ne_of_lt h) (hl.imp fun h => ne_of_lt h)).2 fun i => ?_
    unfold hits
    rw [List.mem_filter]
    constructor
    · rintro ⟨h, hp⟩
      by_contra hi
      rw [hu i h hi] at hp
      exact Bool.noConfusion hp
    · exact fun hi => hm i hi

end Verif.Triple

namespace Verif.Triple

open Spec

section

variable {K : Type} [Field K] [LinearOrder K] [IsStrictOrderedRing K] {n : Nat} {R : Nat → Nat → K}

/-- The only state of a sector among the rows of a loop. -/
theorem last_state {rows : List (Nat × List Nat)} {first count : Nat} (hs : ∀ r ∈ rows, IsState n R r.2 r.1)
    (hperm : (rows.map Prod.fst).Perm (List.range' first count)) {x : Nat} {cols : List Nat} (hx : (x, cols) ∈ rows)
    (hn : cols.Nodup) (hc : ∀ j ∈ cols, j < n)
    (hd : ∀ r ∈ rows, r = (x, cols) ∨ ∀ j ∈ cols, j ∉ r.2) : lastWhere (above R cols) first count = x := by
  refine lastWhere_eq (hperm.subset (List.mem_map.2 ⟨_, hx, rfl⟩)) (above_true (hs _ hx) hn) fun i hi hne => ?_
  obtain ⟨r, hr, rfl⟩ := List.mem_map.1 (hperm.symm.subset hi)
  rcases hd r hr with h | h
  · exact absurd (by rw [h]) hne
  · exact above_false (hs r hr) fun j hj => ⟨hc j hj, h j hj⟩

/-- All states of a sector among the rows of a loop. -/
theorem hits_state {rows : List (Nat × List Nat)} {first count : Nat} (hs : ∀ r ∈ rows, IsState n R r.2 r.1)
    (hperm : (rows.map Prod.fst).Perm (List.range' first count)) {l : List Nat} {cols : List Nat}
    (hl : l.Pairwise (· < ·)) (hx : ∀ x ∈ l, (x, cols) ∈ rows)
    (hn : cols.Nodup) (hc : ∀ j ∈ cols, j < n)
    (hd : ∀ r ∈ rows, r.1 ∈ l ∨ ∀ j ∈ cols, j ∉ r.2) : hits (above R cols) first count = l := by
  refine hits_eq hl (fun i hi => ⟨hperm.subset (List.mem_map.2 ⟨_, hx i hi, rfl⟩), above_true (hs _ (hx i hi)) hn⟩)
    fun i hi hne => ?_
  obtain ⟨r, hr, rfl⟩ := List.mem_map.1 (hperm.symm.subset hi)
  rcases hd r hr with h | h
  · exact absurd h hne
  · exact above_false (hs r hr) fun j hj => ⟨hc j hj, h j hj⟩

/-- The same for the `else if` chains. -/
theorem chain_state {rows : List (Nat × List Nat)} {count : Nat} (hs : ∀ r ∈ rows, IsState n R r.2 r.1)
    (hperm : (rows.map Prod.fst).Perm (List.range' 0 count)) {x col : Nat} {before : List Nat} (hx : (x, [col]) ∈ rows)
    (hc : col < n) (hb : ∀ j ∈ before, j < n ∧ j ≠ col)
    (hd : ∀ r ∈ rows, r = (x, [col]) ∨ col ∉ r.2) : lastWhere (chain R before col) 0 count = x := by
  refine lastWhere_eq (hperm.subset (List.mem_map.2 ⟨_, hx, rfl⟩)) ?_ fun i hi hne => ?_
  · unfold chain
    rw [above_true (hs _ hx) (by simp), Bool.and_true, List.all_eq_true]
    intro j hj
    rw [above_false (hs _ hx)]
    · rfl
    · intro k hk
      rw [List.mem_singleton] at hk
      subst hk
      exact ⟨(hb _ hj).1, by simpa using (hb _ hj).2⟩
  · obtain ⟨r, hr, rfl⟩ := List.mem_map.1 (hperm.symm.subset hi)
    rcases hd r hr with h | h
    · exact absurd (by rw [h]) hne
    · unfold chain
      rw [above_false (hs r hr), Bool.and_false]
      intro j hj
      rw [List.mem_singleton] at hj
      subst hj
      exact ⟨hc, h⟩

end

section

variable {K : Type} [Field K] [LinearOrder K] [IsStrictOrderedRing K]

omit [IsStrictOrderedRing K] in
/-- The particle with a mass between 124 and 126 comes first. -/
theorem exchange_window {m : Nat → K} {a b c : Nat} (hab : m a ≤ m b) (hbc : m b ≤ m c) (s0 : K)
    (hw : ∃ p ∈ [a, b, c], 124 < m p ∧ m p < 126) :
    ∃ s l h, exchange m (a, b, c) (findSM m (a, b, c) s0) = (s, l, h) ∧ SMFirst m a b c s l h ∧
      findSM m (a, b, c) s0 = m s := by
  by_cases hc : 124 < m c ∧ m c < 126
  · have e : findSM m (a, b, c) s0 = m c := by simp [findSM, hc]
    rw [e]
    unfold exchange
    by_cases h1 : m a = m c
    · have hb : m b = m c := le_antisymm hbc (h1 ▸ hab)
      refine ⟨a, b, c, by simp [h1, hb], ⟨List.Perm.refl _, by rw [h1]; exact hc, ?_, hbc⟩, h1.symm⟩
      intro p hp _ _
      simp only [List.mem_cons, List.not_mem_nil, or_false] at hp
      rcases hp with rfl | rfl | rfl <;> simp [h1, hb]
    · by_cases h2 : m b = m c
      · have hlt : m a < m c := lt_of_le_of_ne (hab.trans hbc) h1
        refine ⟨b, a, c, by simp [h1, h2, hlt], ⟨List.Perm.swap a b [c], by rw [h2]; exact hc, ?_, hab.trans hbc⟩,
          h2.symm⟩
        intro p hp _ _
        simp only [List.mem_cons, List.not_mem_nil, or_false] at hp
        rcases hp with rfl | rfl | rfl <;> simp [h2, hab.trans hbc]
      · have hlt : m b < m c := lt_of_le_of_ne hbc h2
        have hlt' : m a < m c := lt_of_le_of_lt hab hlt
        refine ⟨c, a, b, by simp [h1, h2, hlt, hlt'], ⟨?_, hc, ?_, hab⟩, rfl⟩
        · exact (List.Perm.swap a c [b]).trans ((List.Perm.swap b c []).cons a)
        · intro p hp _ _
          simp only [List.mem_cons, List.not_mem_nil, or_false] at hp
          rcases hp with rfl | rfl | rfl
          · exact hlt'.le
          · exact hlt.le
          · exact le_rfl
  · by_cases hb : 124 < m b ∧ m b < 126
    · have e : findSM m (a, b, c) s0 = m b := by
        unfold findSM
        simp only [List.foldl_cons, List.foldl_nil]
        rw [if_neg (fun h => hc ⟨h.2, h.1⟩), if_pos ⟨hb.2, hb.1⟩]
      rw [e]
      unfold exchange
      have hmax : ∀ p ∈ [a, b, c], 124 < m p → m p < 126 → m p ≤ m b := by
        intro p hp h1 h2
        simp only [List.mem_cons, List.not_mem_nil, or_false] at hp
        rcases hp with rfl | rfl | rfl
        · exact hab
        · exact le_rfl
        · exact absurd ⟨h1, h2⟩ hc
      by_cases h1 : m a = m b
      · exact ⟨a, b, c, by simp [h1, not_lt.2 hbc], ⟨List.Perm.refl _, by rw [h1]; exact hb,
          fun p hp h2 h3 => (hmax p hp h2 h3).trans_eq h1.symm, hbc⟩, h1.symm⟩
      · have hlt : m a < m b := lt_of_le_of_ne hab h1
        exact ⟨b, a, c, by simp [h1, hlt, not_lt.2 hbc], ⟨List.Perm.swap a b [c], hb, hmax, hab.trans hbc⟩, rfl⟩
    · have ha : 124 < m a ∧ m a < 126 := by
        obtain ⟨p, hp, hpw⟩ := hw
        simp only [List.mem_cons, List.not_mem_nil, or_false] at hp
        rcases hp with rfl | rfl | rfl
        · exact hpw
        · exact absurd hpw hb
        · exact absurd hpw hc
      have e : findSM m (a, b, c) s0 = m a := by
        unfold findSM
        simp only [List.foldl_cons, List.foldl_nil]
        rw [if_neg (fun h => hc ⟨h.2, h.1⟩), if_neg (fun h => hb ⟨h.2, h.1⟩), if_pos ⟨ha.2, ha.1⟩]
      rw [e]
      unfold exchange
      refine ⟨a, b, c, by simp [not_lt.2 hab, not_lt.2 (hab.trans hbc)], ⟨List.Perm.refl _, ha, ?_, hbc⟩, rfl⟩
      intro p hp h1 h2
      simp only [List.mem_cons, List.not_mem_nil, or_false] at hp
      rcases hp with rfl | rfl | rfl
      · exact le_rfl
      · exact absurd ⟨h1, h2⟩ hb
      · exact absurd ⟨h1, h2⟩ hc

omit [IsStrictOrderedRing K] in
/-- Without such a particle the value of `MSM` from before decides. -/
theorem findSM_none {m : Nat → K} {a b c : Nat} (s0 : K) (hw : ∀ p ∈ [a, b, c], ¬ (124 < m p ∧ m p < 126)) :
    findSM m (a, b, c) s0 = s0 := by
  unfold findSM
  simp only [List.foldl_cons, List.foldl_nil]
  rw [if_neg fun h => hw c (by simp) ⟨h.2, h.1⟩, if_neg fun h => hw b (by simp) ⟨h.2, h.1⟩,
    if_neg fun h => hw a (by simp) ⟨h.2, h.1⟩]

end

theorem setNext_three {a b c : Nat} (ha : a ≠ 0) (hb : b ≠ 0) :
    [a, b, c].foldl setNext (0, 0, 0) = (a, b, c) := by
  simp [setNext, ha, hb]

theorem setNext_zero {b c : Nat} (hb : b ≠ 0) :
    [0, b, c].foldl setNext (0, 0, 0) = (b, c, 0) := by
  simp [setNext, hb]

end Verif.Triple
