import Verif.Potential.SymProps
import Verif.Potential.TreeProps
import Mathlib.Algebra.BigOperators.Fin
import Mathlib.Algebra.BigOperators.Ring.Finset
import Mathlib.Data.List.Dedup
import Mathlib.Tactic.Ring

/-!
# Tensors filled by assignments

The concrete models fill the tensors `Curvature_Higgs_L1 … L4` by statements
`Curvature_Higgs_L4[i][j][k][l] = …;`, either for every order of the indices or only for ascending
indices, followed by loops which copy the entry to the other orders.  A list of such statements is an
`Assign`.
-/

set_option linter.unusedSectionVars false

namespace Verif.Lagrangian

open Verif.Potential
open Verif.Potential.Spec (polynomial Symmetrises)

/-- Statements `tensor[position] = value;` in the order of the source. -/
abbrev Assign (K : Type) := List (List Nat × K)

section

variable {K : Type} [Field K] {n : Nat}

/-- The tensor after `initVectors` (ClassPotentialOrigin.cpp:3332-3390: every vector is
assigned zeros). -/
def zeroTensor : List Nat → K := fun _ => 0

/-- The statements executed in turn. -/
def assign (w : Assign K) (t : List Nat → K) : List Nat → K :=
  w.foldl (fun t e => setEntry t e.1 e.2) t

/-- The tensors of a model as read by the potential. -/
def curv (n : Nat) (l1 l2 l3 l4 : List Nat → K) : Curv n K where
  L1 i := l1 [i]
  L2 i j := l2 [i, j]
  L3 i j k := l3 [i, j, k]
  L4 i j k l := l4 [i, j, k, l]

/-! ### Sums over assigned entries -/

/-- The sum of the values assigned to a position. -/
def sumT (w : Assign K) (q : List Nat) : K := (w.map fun e => if q = e.1 then e.2 else 0).sum

/-- The positions are different. -/
def Distinct (w : Assign K) : Prop := (w.map (·.1)).Nodup

instance (w : Assign K) : Decidable (Distinct w) := by unfold Distinct; infer_instance

theorem sumT_nil (q : List Nat) : sumT ([] : Assign K) q = 0 := by simp [sumT]

theorem sumT_cons (e : List Nat × K) (w : Assign K) (q : List Nat) :
    sumT (e :: w) q = (if q = e.1 then e.2 else 0) + sumT w q := by simp [sumT]

theorem sumT_append (w w' : Assign K) (q : List Nat) :
    sumT (w ++ w') q = sumT w q + sumT w' q := by simp [sumT]

theorem sumT_notin (w : Assign K) (q : List Nat) (h : q ∉ w.map (·.1)) : sumT w q = 0 := by
  induction w with
  | nil => simp [sumT]
  | cons e w ih =>
    simp only [List.map_cons, List.mem_cons, not_or] at h
    rw [sumT_cons, if_neg h.1, ih h.2, add_zero]

/-- With different positions the statements do not overwrite each other. -/
theorem assign_eq (w : Assign K) (h : Distinct w) : assign w zeroTensor = sumT w := by
  have key : ∀ (w : Assign K) (t : List Nat → K), Distinct w → ∀ q,
      assign w t q = if q ∈ w.map (·.1) then sumT w q else t q := by
    intro w
    induction w with
    | nil => intro t _ q; simp [assign]
    | cons e w ih =>
      intro t hd q
      have hd' : Distinct w := (List.nodup_cons.1 hd).2
      have hn : e.1 ∉ w.map (·.1) := (List.nodup_cons.1 hd).1
      have := ih (setEntry t e.1 e.2) hd' q
      rw [assign, List.foldl_cons]
      rw [assign] at this
      rw [this, sumT_cons, List.map_cons]
      by_cases hq : q = e.1
      · subst hq
        rw [if_neg hn, if_pos List.mem_cons_self, if_pos rfl, sumT_notin _ _ hn, add_zero]
        simp [setEntry]
      · by_cases hm : q ∈ w.map (·.1)
        · rw [if_pos hm, if_pos (List.mem_cons_of_mem _ hm), if_neg hq, zero_add]
        · rw [if_neg hm, if_neg (by simp only [List.mem_cons, not_or]; exact ⟨hq, hm⟩)]
          simp [setEntry, hq]
  funext q
  rw [key w zeroTensor h q]
  by_cases hq : q ∈ w.map (·.1)
  · rw [if_pos hq]
  · rw [if_neg hq, sumT_notin _ _ hq]; rfl

/-! ### Contractions -/

/-- The vector with zeros after its last component. -/
def ext (v : FVec n K) (m : Nat) : K := if h : m < n then v ⟨m, h⟩ else 0

theorem sum_pick (v : FVec n K) (m : Nat) : (∑ i : Fin n, if (i : Nat) = m then v i else 0) = ext v m := by
  unfold ext
  split
  · next h =>
    rw [Finset.sum_eq_single ⟨m, h⟩]
    · simp
    · intro b _ hb
      rw [if_neg]
      intro h'; exact hb (Fin.ext h')
    · simp
  · next h =>
    apply Finset.sum_eq_zero
    intro i _
    rw [if_neg]
    intro h'; exact h (h' ▸ i.isLt)

theorem sumT_one (w : Assign K) (a : FVec n K) :
    ∑ i : Fin n, sumT w [(i : Nat)] * a i =
      (w.map fun e => match e.1 with | [p] => e.2 * ext a p | _ => 0).sum := by
  induction w with
  | nil => simp [sumT]
  | cons e w ih =>
    simp only [sumT_cons, add_mul, Finset.sum_add_distrib, List.map_cons, List.sum_cons, ih]
    congr 1
    obtain ⟨q, x⟩ := e
    match q with
    | [] => simp
    | [p] =>
      dsimp only
      rw [← sum_pick, Finset.mul_sum]
      refine Finset.sum_congr rfl fun i _ => ?_
      by_cases hp : (i : Nat) = p <;> simp [hp]
    | _ :: _ :: _ => simp

theorem sumT_two (w : Assign K) (a b : FVec n K) :
    ∑ i : Fin n, ∑ j : Fin n, sumT w [(i : Nat), (j : Nat)] * (a i * b j) =
      (w.map fun e => match e.1 with | [p, q] => e.2 * (ext a p * ext b q) | _ => 0).sum := by
  induction w with
  | nil => simp [sumT]
  | cons e w ih =>
    simp only [sumT_cons, add_mul, Finset.sum_add_distrib, List.map_cons, List.sum_cons, ih]
    congr 1
    obtain ⟨q, x⟩ := e
    match q with
    | [] => simp
    | [_] => simp
    | [p, q] =>
      dsimp only
      rw [← sum_pick, ← sum_pick]
      simp only [Finset.sum_mul]
      simp only [Finset.mul_sum]
      refine Finset.sum_congr rfl fun i _ => Finset.sum_congr rfl fun j _ => ?_
      by_cases hp : (i : Nat) = p <;> by_cases hq : (j : Nat) = q <;> simp [hp, hq]
    | _ :: _ :: _ :: _ => simp

theorem sumT_three (w : Assign K) (a b c : FVec n K) :
    ∑ i : Fin n, ∑ j : Fin n, ∑ k : Fin n, sumT w [(i : Nat), (j : Nat), (k : Nat)] *
        (a i * (b j * c k)) =
      (w.map fun e => match e.1 with
        | [p, q, r] => e.2 * (ext a p * (ext b q * ext c r)) | _ => 0).sum := by
  induction w with
  | nil => simp [sumT]
  | cons e w ih =>
    simp only [sumT_cons, add_mul, Finset.sum_add_distrib, List.map_cons, List.sum_cons, ih]
    congr 1
    obtain ⟨q, x⟩ := e
    match q with
    | [] => simp
    | [_] => simp
    | [_, _] => simp
    | [p, q, r] =>
      dsimp only
      rw [← sum_pick, ← sum_pick, ← sum_pick]
      simp only [Finset.sum_mul]
      simp only [Finset.mul_sum]
      refine Finset.sum_congr rfl fun i _ => Finset.sum_congr rfl fun j _ =>
        Finset.sum_congr rfl fun k _ => ?_
      by_cases hp : (i : Nat) = p <;> by_cases hq : (j : Nat) = q <;>
        by_cases hr : (k : Nat) = r <;> simp [hp, hq, hr]
    | _ :: _ :: _ :: _ :: _ => simp

theorem sumT_four {n1 n2 n3 n4 : Nat} (w : Assign K) (a : FVec n1 K) (b : FVec n2 K)
    (c : FVec n3 K) (d : FVec n4 K) :
    ∑ i : Fin n1, ∑ j : Fin n2, ∑ k : Fin n3, ∑ l : Fin n4,
        sumT w [(i : Nat), (j : Nat), (k : Nat), (l : Nat)] * (a i * (b j * (c k * d l))) =
      (w.map fun e => match e.1 with
        | [p, q, r, s] => e.2 * (ext a p * (ext b q * (ext c r * ext d s))) | _ => 0).sum := by
  induction w with
  | nil => simp [sumT]
  | cons e w ih =>
    simp only [sumT_cons, add_mul, Finset.sum_add_distrib, List.map_cons, List.sum_cons, ih]
    congr 1
    obtain ⟨q, x⟩ := e
    match q with
    | [] => simp
    | [_] => simp
    | [_, _] => simp
    | [_, _, _] => simp
    | [p, q, r, s] =>
      dsimp only
      rw [← sum_pick, ← sum_pick, ← sum_pick, ← sum_pick]
      simp only [Finset.sum_mul]
      simp only [Finset.mul_sum]
      refine Finset.sum_congr rfl fun i _ => Finset.sum_congr rfl fun j _ =>
        Finset.sum_congr rfl fun k _ => Finset.sum_congr rfl fun l _ => ?_
      by_cases hp : (i : Nat) = p <;> by_cases hq : (j : Nat) = q <;>
        by_cases hr : (k : Nat) = r <;> by_cases hs : (l : Nat) = s <;> simp [hp, hq, hr, hs]
    | _ :: _ :: _ :: _ :: _ :: _ => simp

/-- The contribution of a list of entries to the potential: value times the fields at the
indices. -/
def terms (w : Assign K) (f : Nat → K) : K := (w.map fun e => e.2 * (e.1.map f).prod).sum

/-- All positions have the given number of indices. -/
def Rank (d : Nat) (w : Assign K) : Prop := ∀ e ∈ w, e.1.length = d

theorem terms_of_match (w : Assign K) (f : Nat → K) (g : List Nat × K → K)
    (h : ∀ e ∈ w, g e = e.2 * (e.1.map f).prod) : (w.map g).sum = terms w f := by
  unfold terms
  rw [List.map_congr_left h]

theorem polynomial_of_sumT (w1 w2 w3 w4 : Assign K) (h1 : Rank 1 w1) (h2 : Rank 2 w2)
    (h3 : Rank 3 w3) (h4 : Rank 4 w4) (v : FVec n K) :
    polynomial (curv n (sumT w1) (sumT w2) (sumT w3) (sumT w4)) v =
      terms w1 (ext v) + 1 / 2 * terms w2 (ext v) + 1 / 6 * terms w3 (ext v) +
        1 / 24 * terms w4 (ext v) := by
  have e1 := sumT_one w1 v
  have e2 := sumT_two w2 v v
  have e3 := sumT_three w3 v v v
  have e4 := sumT_four w4 v v v v
  rw [terms_of_match w1 (ext v)] at e1
  · rw [terms_of_match w2 (ext v)] at e2
    · rw [terms_of_match w3 (ext v)] at e3
      · rw [terms_of_match w4 (ext v)] at e4
        · unfold polynomial curv
          simp only [mul_assoc] at e1 e2 e3 e4 ⊢
          rw [e1, e2, e3, e4]
        · rintro ⟨q, x⟩ he
          have := h4 _ he
          match q, this with
          | [_, _, _, _], _ => simp
      · rintro ⟨q, x⟩ he
        have := h3 _ he
        match q, this with
        | [_, _, _], _ => simp
    · rintro ⟨q, x⟩ he
      have := h2 _ he
      match q, this with
      | [_, _], _ => simp
  · rintro ⟨q, x⟩ he
    have := h1 _ he
    match q, this with
    | [_], _ => simp

/-! ### Symmetrised entries -/

/-- The different orders of a list of indices. -/
def orders (s : List Nat) : List (List Nat) := s.permutations'.dedup

/-- Every entry for every order of its indices. -/
def expand (w : Assign K) : Assign K := w.flatMap fun e => (orders e.1).map fun p => (p, e.2)

/-- Positions with ascending indices. -/
def Ascending (w : Assign K) : Prop := ∀ e ∈ w, e.1.Pairwise (· ≤ ·)

theorem sumT_expand (w : Assign K) (h : Ascending w) (q : List Nat) :
    sumT (expand w) q = sumT w (q.insertionSort (· ≤ ·)) := by
  induction w with
  | nil => simp [expand, sumT]
  | cons e w ih =>
    have ih := ih (fun x hx => h x (List.mem_cons_of_mem _ hx))
    rw [expand, List.flatMap_cons, sumT_append, sumT_cons]
    rw [expand] at ih
    rw [ih]
    congr 1
    have hs : e.1.Pairwise (· ≤ ·) := h e List.mem_cons_self
    have hnd : (orders e.1).Nodup := List.nodup_dedup _
    have hmem : q ∈ orders e.1 ↔ q.insertionSort (· ≤ ·) = e.1 := by
      rw [orders, List.mem_dedup, List.mem_permutations']
      constructor
      · intro hp
        exact List.Perm.eq_of_pairwise (fun a b _ _ h1 h2 => Nat.le_antisymm h1 h2)
          (List.pairwise_insertionSort _ _) hs ((List.perm_insertionSort _ _).trans hp)
      · intro he
        rw [← he]
        exact (List.perm_insertionSort _ _).symm
    have aux : ∀ L : List (List Nat), L.Nodup →
        sumT (L.map fun p => (p, e.2)) q = if q ∈ L then e.2 else 0 := by
      intro L hL
      induction L with
      | nil => simp [sumT]
      | cons p L ih' =>
        have hL' := List.nodup_cons.1 hL
        rw [List.map_cons, sumT_cons, ih' hL'.2]
        by_cases hq : q = p
        · subst hq; simp [hL'.1]
        · simp [hq]
    rw [aux _ hnd]
    by_cases hq : q ∈ orders e.1
    · rw [if_pos hq, if_pos (hmem.1 hq)]
    · rw [if_neg hq, if_neg (fun h' => hq (hmem.2 h'))]

/-- A symmetrised tensor holds every entry for every order of its indices. -/
theorem symmetrised_eq (d N : Nat) (w : Assign K) (hd : Distinct w)
    (t : List Nat → K) (h : Symmetrises d N (assign w zeroTensor) t) (q : List Nat)
    (hq : q.length = d) (hN : ∀ k ∈ q, k < N) :
    t q = sumT w (q.insertionSort (· ≤ ·)) := by
  rw [h.2.1 q (q.insertionSort (· ≤ ·)) hq hN (List.perm_insertionSort _ _).symm,
    h.1 _ (by rw [List.length_insertionSort, hq]) (List.pairwise_insertionSort _ _), assign_eq w hd]

theorem symmetrised_expand (d N : Nat) (w : Assign K) (hd : Distinct w) (ha : Ascending w)
    (t : List Nat → K) (h : Symmetrises d N (assign w zeroTensor) t) (q : List Nat)
    (hq : q.length = d) (hN : ∀ k ∈ q, k < N) : t q = sumT (expand w) q := by
  rw [symmetrised_eq d N w hd t h q hq hN, sumT_expand w ha]

/-- The number of different orders. -/
def mult (s : List Nat) : Nat := (orders s).length

theorem terms_expand (w : Assign K) (f : Nat → K) :
    terms (expand w) f = (w.map fun e => e.2 * (((mult e.1 : Nat) : K) * (e.1.map f).prod)).sum := by
  induction w with
  | nil => simp [terms, expand]
  | cons e w ih =>
    have happ : ∀ a b : Assign K, terms (a ++ b) f = terms a f + terms b f := by
      intro a b; simp [terms]
    rw [expand, List.flatMap_cons, happ, List.map_cons, List.sum_cons, ← ih, expand]
    congr 1
    have aux : ∀ L : List (List Nat), (∀ p ∈ L, p.Perm e.1) →
        terms (L.map fun p => (p, e.2)) f = e.2 * (((L.length : Nat) : K) * (e.1.map f).prod) := by
      intro L
      induction L with
      | nil => simp [terms]
      | cons p L ih' =>
        intro hp
        have h1 := ih' (fun x hx => hp x (List.mem_cons_of_mem _ hx))
        have h2 := ((hp p List.mem_cons_self).map f).prod_eq
        rw [List.map_cons, ← List.singleton_append, happ, h1]
        simp only [terms, List.map_cons, List.map_nil, List.sum_cons, List.sum_nil, h2,
          List.length_cons]
        push_cast
        ring
    rw [mult]
    refine aux _ fun p hp => ?_
    rw [orders, List.mem_dedup, List.mem_permutations'] at hp
    exact hp

theorem rank_expand (d : Nat) (w : Assign K) (h : Rank d w) : Rank d (expand w) := by
  intro e he
  simp only [expand, List.mem_flatMap, List.mem_map] at he
  obtain ⟨x, hx, p, hp, rfl⟩ := he
  rw [orders, List.mem_dedup, List.mem_permutations'] at hp
  exact hp.length_eq.trans (h x hx)

end

end Verif.Lagrangian
