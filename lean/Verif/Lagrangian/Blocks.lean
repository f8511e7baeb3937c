import Verif.Lagrangian.Eval

/-!
# Long lists of assignments, split by the first index
-/

set_option linter.unusedSectionVars false

namespace Verif.Lagrangian

open Verif.Potential

variable {K : Type} [Field K]

/-- The lists belong to the first indices `k`, `k + 1`, … and have no repetitions. -/
def Blocked : Nat → List (Assign K) → Prop
  | _, [] => True
  | k, b :: bs => (∀ q ∈ b.map (·.1), q.head? = some k) ∧ Distinct b ∧ Blocked (k + 1) bs

theorem blocked_head (bs : List (Assign K)) (k : Nat) (h : Blocked k bs) :
    ∀ q ∈ bs.flatten.map (·.1), ∃ i, k ≤ i ∧ q.head? = some i := by
  induction bs generalizing k with
  | nil => simp
  | cons b bs ih =>
    obtain ⟨h1, _, h3⟩ := h
    intro q hq
    rw [List.flatten_cons, List.map_append, List.mem_append] at hq
    rcases hq with hq | hq
    · exact ⟨k, Nat.le_refl k, h1 q hq⟩
    · obtain ⟨i, hi, he⟩ := ih (k + 1) h3 q hq
      exact ⟨i, by omega, he⟩

theorem blocked_distinct (bs : List (Assign K)) (k : Nat) (h : Blocked k bs) :
    Distinct bs.flatten := by
  induction bs generalizing k with
  | nil => exact distinct_nil
  | cons b bs ih =>
    obtain ⟨h1, h2, h3⟩ := h
    rw [Distinct, List.flatten_cons, List.map_append, List.nodup_append]
    refine ⟨h2, ih (k + 1) h3, ?_⟩
    intro x hx y hy hxy
    subst hxy
    obtain ⟨i, hi, he⟩ := blocked_head bs (k + 1) h3 x hy
    rw [h1 x hx] at he
    injection he with he
    omega

theorem look_append_not_mem (a b : Assign K) (q : List Nat) (hq : q ∉ a.map (·.1)) :
    look (a ++ b) q = look b q := by
  induction a with
  | nil => rfl
  | cons e a ih =>
    rw [List.map_cons, List.mem_cons, not_or] at hq
    have : (q == e.1) = false := by simpa using hq.1
    rw [look, List.cons_append, List.lookup_cons, this]
    exact ih hq.2

theorem look_append_mem (a b : Assign K) (q : List Nat) (hq : q ∈ a.map (·.1)) :
    look (a ++ b) q = look a q := by
  induction a with
  | nil => simp at hq
  | cons e a ih =>
    rw [look, look, List.cons_append, List.lookup_cons, List.lookup_cons]
    by_cases h : q = e.1
    · simp [h]
    · have : (q == e.1) = false := by simpa using h
      rw [this]
      rw [List.map_cons, List.mem_cons] at hq
      exact ih (hq.resolve_left h)

/-- Only the list of the first index matters. -/
theorem blocked_look (bs : List (Assign K)) (k : Nat) (h : Blocked k bs) (i : Nat) (q : List Nat) :
    look bs.flatten ((k + i) :: q) = look (bs.getD i []) ((k + i) :: q) := by
  induction bs generalizing k i with
  | nil => rfl
  | cons b bs ih =>
    obtain ⟨h1, h2, h3⟩ := h
    rw [List.flatten_cons]
    cases i with
    | zero =>
      rw [Nat.add_zero]
      by_cases hq : (k :: q) ∈ b.map (·.1)
      · rw [look_append_mem _ _ _ hq]; rfl
      · rw [look_append_not_mem _ _ _ hq, look_not_mem]
        · exact (look_not_mem b hq).symm
        · intro hm
          obtain ⟨i, hi, he⟩ := blocked_head bs (k + 1) h3 _ hm
          simp at he
          omega
    | succ i =>
      rw [look_append_not_mem]
      · have := ih (k + 1) h3 i
        rw [show k + 1 + i = k + (i + 1) by omega] at this
        exact this
      · intro hm
        have := h1 _ hm
        simp at this

theorem terms_flatten (bs : List (Assign K)) (f : Nat → K) :
    terms bs.flatten f = (bs.map fun b => terms b f).sum := by
  induction bs with
  | nil => rfl
  | cons b bs ih =>
    rw [List.flatten_cons, List.map_cons, List.sum_cons, ← ih]
    unfold terms
    rw [List.map_append, List.sum_append]

theorem rank_flatten (d : Nat) (bs : List (Assign K)) (h : ∀ b ∈ bs, Rank d b) :
    Rank d bs.flatten := by
  intro e he
  obtain ⟨b, hb, heb⟩ := List.mem_flatten.1 he
  exact h b hb e heb

end Verif.Lagrangian
