import Verif.Lagrangian.Blocks

/-!
# Lists with many vanishing entries

Some models assign zeros to most entries of their tensors.  These statements have no effect on
tensors initialised with zeros.
-/

set_option linter.unusedSectionVars false

namespace Verif.Lagrangian

open Verif.Potential

variable {K : Type} [Field K]

/-- The second list is the first one without some of the entries with value zero. -/
inductive Drops : Assign K → Assign K → Prop
  | nil : Drops [] []
  | keep (e : List Nat × K) {a b : Assign K} : Drops a b → Drops (e :: a) (e :: b)
  | drop (q : List Nat) {a b : Assign K} : Drops a b → Drops ((q, 0) :: a) b

theorem Drops.sublist {a b : Assign K} (h : Drops a b) : List.Sublist b a := by
  induction h with
  | nil => exact List.Sublist.refl _
  | keep e _ ih => exact ih.cons_cons e
  | drop q _ ih => exact ih.cons _

theorem Drops.distinct {a b : Assign K} (h : Drops a b) (hd : Distinct a) : Distinct b :=
  List.Nodup.sublist (h.sublist.map _) hd

theorem Drops.look {a b : Assign K} (h : Drops a b) (hd : Distinct a) :
    look a = look b := by
  induction h with
  | nil => rfl
  | @keep e a b h ih =>
    rw [Distinct, List.map_cons, List.nodup_cons] at hd
    funext q
    have := congrFun (ih hd.2) q
    rw [Lagrangian.look, Lagrangian.look] at this ⊢
    rw [List.lookup_cons, List.lookup_cons]
    split
    · rfl
    · exact this
  | @drop q a b h ih =>
    have hd' := hd
    rw [Distinct, List.map_cons, List.nodup_cons] at hd
    rw [← ih hd.2]
    funext p
    by_cases hp : p = q
    · subst hp
      rw [look_not_mem a hd.1]
      simp [Lagrangian.look]
    · have : (p == q) = false := by simpa using hp
      rw [Lagrangian.look, List.lookup_cons, this, Lagrangian.look]

/-- Assigning zero to an entry which is zero already has no effect. -/
theorem Drops.assign {a b : Assign K} (h : Drops a b) (hd : Distinct a) :
    assign a zeroTensor = assign b zeroTensor := by
  rw [assign_look a hd, assign_look b (h.distinct hd), h.look hd]

theorem Drops.append {a b c d : Assign K} (h : Drops a b) (h' : Drops c d) :
    Drops (a ++ c) (b ++ d) := by
  induction h with
  | nil => exact h'
  | keep e _ ih => exact .keep e ih
  | drop q _ ih => exact .drop q ih

/-- The lists have different values of `key` and no repetitions. -/
def KeyBlocks (key : List Nat → Nat) : Nat → List (Assign K) → Prop
  | _, [] => True
  | k, b :: bs => (∀ q ∈ b.map (·.1), key q = k) ∧ Distinct b ∧ KeyBlocks key (k + 1) bs

theorem keyBlocks_key (key : List Nat → Nat) (bs : List (Assign K)) (k : Nat)
    (h : KeyBlocks key k bs) : ∀ q ∈ bs.flatten.map (·.1), k ≤ key q := by
  induction bs generalizing k with
  | nil => simp
  | cons b bs ih =>
    obtain ⟨h1, _, h3⟩ := h
    intro q hq
    rw [List.flatten_cons, List.map_append, List.mem_append] at hq
    rcases hq with hq | hq
    · exact (h1 q hq).ge
    · exact (Nat.le_succ k).trans (ih (k + 1) h3 q hq)

theorem keyBlocks_distinct (key : List Nat → Nat) (bs : List (Assign K)) (k : Nat)
    (h : KeyBlocks key k bs) : Distinct bs.flatten := by
  induction bs generalizing k with
  | nil => exact distinct_nil
  | cons b bs ih =>
    obtain ⟨h1, h2, h3⟩ := h
    rw [Distinct, List.flatten_cons, List.map_append, List.nodup_append]
    refine ⟨h2, ih (k + 1) h3, ?_⟩
    intro x hx y hy hxy
    subst hxy
    have := keyBlocks_key key bs (k + 1) h3 x hy
    rw [h1 x hx] at this
    omega

/-- The order of the last two indices does not matter. -/
theorem lookSym_last (w : Assign K) (i j k l : Nat) :
    lookSym w [i, j, k, l] = lookSym w [i, j, l, k] := by
  have : ([i, j, k, l].insertionSort (· ≤ ·)) = [i, j, l, k].insertionSort (· ≤ ·) := by
    refine List.Perm.eq_of_pairwise (le := (· ≤ ·)) (fun a b _ _ h h' => Nat.le_antisymm h h')
      (List.pairwise_insertionSort _ _) (List.pairwise_insertionSort _ _) ?_
    refine (List.perm_insertionSort _ _).trans (List.Perm.trans ?_ (List.perm_insertionSort _ _).symm)
    exact ((List.Perm.swap l k []).cons j).cons i
  rw [lookSym, lookSym, this]

/-- The potential of tensors whose quadratic and quartic parts were given for ascending indices. -/
theorem polynomial_sym2 {n : Nat} (w1 w2 w3 w4 : Assign K) (d1 : Distinct w1) (d2 : Distinct w2)
    (d3 : Distinct w3) (d4 : Distinct w4) (a2 : Ascending w2) (a4 : Ascending w4) (h1 : Rank 1 w1)
    (h2 : Rank 2 w2) (h3 : Rank 3 w3) (h4 : Rank 4 w4) (v : FVec n K) :
    Potential.Spec.polynomial (curv n (look w1) (lookSym w2) (look w3) (lookSym w4)) v =
      terms w1 (ext v) +
        1 / 2 * (w2.map fun e => e.2 * (((mult e.1 : Nat) : K) * (e.1.map (ext v)).prod)).sum +
        1 / 6 * terms w3 (ext v) +
        1 / 24 * (w4.map fun e => e.2 * (((mult e.1 : Nat) : K) * (e.1.map (ext v)).prod)).sum := by
  have e1 : look w1 = sumT w1 := by funext q; exact (sumT_look w1 d1 q).symm
  have e3 : look w3 = sumT w3 := by funext q; exact (sumT_look w3 d3 q).symm
  rw [e1, e3, lookSym_expand w2 d2 a2, lookSym_expand w4 d4 a4,
    polynomial_of_sumT w1 (expand w2) w3 (expand w4) h1 (rank_expand 2 w2 h2) h3
      (rank_expand 4 w4 h4), terms_expand, terms_expand]

/-- The number of different orders of two indices. -/
theorem mult_pair (a b : Nat) : mult [a, b] = if a = b then 1 else 2 := by
  by_cases h : a = b
  · subst h
    simp [mult, orders, List.permutations', List.permutations'Aux]
  · have h' : ¬ b = a := fun e => h e.symm
    simp [mult, orders, List.permutations', List.permutations'Aux, h, List.dedup_cons_of_notMem]

end Verif.Lagrangian
