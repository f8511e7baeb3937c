import Verif.Potential.TreeSpec
import Mathlib.Data.List.Permutation
import Mathlib.Data.List.Sort

/-!
# Symmetrisation of tensors (C32)
-/

namespace Verif.Potential

open Verif Outcome
open Spec (Symmetrises)

section Sym

variable {K : Type} {n : Nat}

theorem foldl_setEntry (s : List Nat) (ps : List (List Nat)) (t : List Nat → K) (q : List Nat) :
    (ps.foldl (fun t p => setEntry t p (t s)) t) q = if q ∈ ps then t s else t q := by
  induction ps generalizing t with
  | nil => simp
  | cons p ps ih =>
    rw [List.foldl_cons, ih]
    by_cases hs : s = p
    · subst hs
      simp only [setEntry, if_true, List.mem_cons]
      by_cases h1 : q ∈ ps
      · simp [h1]
      · by_cases h2 : q = s <;> simp [h1, h2]
    · simp only [setEntry, if_neg hs, List.mem_cons]
      by_cases h1 : q ∈ ps
      · simp [h1]
      · by_cases h2 : q = p <;> simp [h1, h2]

/-- The positions written by a body, with the position read, are all the orders of the indices. -/
def AllOrders (perms : List Nat → List (List Nat)) (d : Nat) : Prop :=
  ∀ s q : List Nat, s.length = d → (q ∈ perms s ∨ q = s ↔ q.Perm s)

theorem allOrders2 : AllOrders perms2 2 := by
  intro s q hs
  match s, hs with
  | [a, b], _ =>
    rw [← List.mem_permutations']
    simp only [perms2, List.permutations', List.permutations'Aux, List.flatMap_cons,
      List.flatMap_nil, List.map_cons, List.map_nil, List.mem_cons, List.not_mem_nil, or_false,
      List.append_nil]
    tauto

theorem allOrders3 : AllOrders perms3 3 := by
  intro s q hs
  match s, hs with
  | [a, b, c], _ =>
    rw [← List.mem_permutations']
    simp only [perms3, List.permutations', List.permutations'Aux, List.flatMap_cons,
      List.flatMap_nil, List.map_cons, List.map_nil, List.mem_cons, List.not_mem_nil, or_false,
      List.append_nil, List.cons_append, List.nil_append]
    tauto

theorem allOrders4 : AllOrders perms4 4 := by
  intro s q hs
  match s, hs with
  | [a, b, c, d], _ =>
    rw [← List.mem_permutations']
    have h1 : (q ∈ perms4 [a, b, c, d] ∨ q = [a, b, c, d]) ↔
        q ∈ [a, b, c, d] :: perms4 [a, b, c, d] := by rw [List.mem_cons]; tauto
    rw [h1]
    refine ((?_ : List.Perm _ _).mem_iff)
    have h0 : List.Perm (([0, 1, 2, 3] : List Nat) :: perms4 [0, 1, 2, 3])
        (List.permutations' [0, 1, 2, 3]) := by decide
    have h := h0.map (fun l => l.map fun i => [a, b, c, d].getD i 0)
    simpa [perms4, List.permutations', List.permutations'Aux] using h

/-- One body sets all orders of `s` to the entry at `s` and nothing else. -/
theorem symBody_eq (perms : List Nat → List (List Nat)) (d : Nat) (hp : AllOrders perms d)
    (t : List Nat → K) (s : List Nat) (hs : s.length = d) (q : List Nat) [Decidable (q.Perm s)] :
    symBody perms t s q = if q.Perm s then t s else t q := by
  rw [symBody, foldl_setEntry]
  have := hp s q hs
  by_cases h1 : q ∈ perms s
  · rw [if_pos h1, if_pos (this.1 (Or.inl h1))]
  · rw [if_neg h1]
    by_cases h2 : q = s
    · subst h2; simp
    · rw [if_neg (fun h => (this.2 h).elim h1 h2)]

theorem foldl_symBody (perms : List Nat → List (List Nat)) (d : Nat) (hp : AllOrders perms d)
    (S : List (List Nat)) (hS : ∀ s ∈ S, s.length = d ∧ s.Pairwise (· ≤ ·)) (t : List Nat → K)
    (q : List Nat) :
    (∀ s ∈ S, q.Perm s → S.foldl (symBody perms) t q = t s) ∧
    ((∀ s ∈ S, ¬ q.Perm s) → S.foldl (symBody perms) t q = t q) := by
  classical
  induction S generalizing t with
  | nil => simp
  | cons s S ih =>
    have ih := ih (fun x hx => hS x (by simp [hx])) (symBody perms t s)
    have hs := hS s (by simp)
    rw [List.foldl_cons]
    constructor
    · intro s' hs' hq
      have hsort := (hS s' hs').2
      by_cases hin : s' ∈ S
      · rw [ih.1 s' hin hq, symBody_eq perms d hp t s hs.1 s']
        split
        · next h =>
          rw [List.Perm.eq_of_pairwise (fun a b _ _ h1 h2 => Nat.le_antisymm h1 h2) hs.2 hsort
            h.symm]
        · rfl
      · have : s' = s := by
          rcases List.mem_cons.1 hs' with h | h
          · exact h
          · exact absurd h hin
        subst this
        have hno : ∀ s'' ∈ S, ¬ q.Perm s'' := by
          intro s'' h'' hq'
          have := List.Perm.eq_of_pairwise (fun a b _ _ h1 h2 => Nat.le_antisymm h1 h2) hsort
            (hS s'' (by simp [h''])).2 (hq.symm.trans hq')
          exact hin (this ▸ h'')
        rw [ih.2 hno, symBody_eq perms d hp t s' hs.1 q, if_pos hq]
    · intro hno
      rw [ih.2 fun s' h' => hno s' (by simp [h']), symBody_eq perms d hp t s hs.1 q,
        if_neg (hno s (by simp))]

theorem mem_rangeFrom (a b k : Nat) : k ∈ rangeFrom a b ↔ a ≤ k ∧ k < b := by
  simp only [rangeFrom, List.mem_map, List.mem_range]
  constructor
  · rintro ⟨m, hm, rfl⟩; omega
  · intro h; exact ⟨k - a, by omega, by omega⟩

theorem symmetrises_of (perms : List Nat → List (List Nat)) (d N : Nat)
    (hp : AllOrders perms d) (S : List (List Nat))
    (hS : ∀ s, s ∈ S ↔ s.length = d ∧ s.Pairwise (· ≤ ·) ∧ ∀ k ∈ s, k < N) (t : List Nat → K) :
    Symmetrises d N t (S.foldl (symBody perms) t) := by
  have hS' : ∀ s ∈ S, s.length = d ∧ s.Pairwise (· ≤ ·) := fun s hs =>
    ⟨((hS s).1 hs).1, ((hS s).1 hs).2.1⟩
  have main : ∀ q : List Nat, q.length = d → (∀ k ∈ q, k < N) →
      S.foldl (symBody perms) t q = t (q.insertionSort (· ≤ ·)) := by
    intro q hq hN
    refine (foldl_symBody perms d hp S hS' t q).1 _ ((hS _).2 ⟨?_, ?_, ?_⟩)
      (List.perm_insertionSort _ _).symm
    · rw [List.length_insertionSort, hq]
    · exact List.pairwise_insertionSort _ _
    · intro k hk
      exact hN k ((List.perm_insertionSort _ _).mem_iff.1 hk)
  refine ⟨?_, ?_, ?_⟩
  · intro s hs hsort
    by_cases hN : ∀ k ∈ s, k < N
    · exact (foldl_symBody perms d hp S hS' t s).1 s ((hS s).2 ⟨hs, hsort, hN⟩) (List.Perm.refl _)
    · refine (foldl_symBody perms d hp S hS' t s).2 fun s' hs' hperm => hN fun k hk => ?_
      exact ((hS s').1 hs').2.2 k (hperm.mem_iff.1 hk)
  · intro q q' hq hN hperm
    rw [main q hq hN, main q' (by rw [← hperm.length_eq, hq])
      (fun k hk => hN k (hperm.mem_iff.2 hk))]
    congr 1
    exact List.Perm.eq_of_pairwise (fun a b _ _ h1 h2 => Nat.le_antisymm h1 h2)
      (List.pairwise_insertionSort _ _) (List.pairwise_insertionSort _ _)
      (((List.perm_insertionSort _ _).trans hperm).trans (List.perm_insertionSort _ _).symm)
  · intro q hq
    refine (foldl_symBody perms d hp S hS' t q).2 fun s hs hperm => hq ⟨?_, fun k hk => ?_⟩
    · rw [hperm.length_eq]; exact (hS' s hs).1
    · exact ((hS s).1 hs).2.2 k (hperm.mem_iff.1 hk)

/-- `sym2Dim` makes a matrix symmetric and keeps its upper triangle, for every size. -/
theorem C32_sym2 (t : List Nat → K) (N : Nat) : Symmetrises 2 N t (sym2Dim t N N) := by
  refine symmetrises_of perms2 2 N allOrders2 _ (fun s => ?_) t
  simp only [List.mem_flatMap, List.mem_map, List.mem_range, mem_rangeFrom]
  constructor
  · rintro ⟨a, ha, b, hb, rfl⟩
    simp; omega
  · rintro ⟨h1, h2, h3⟩
    match s, h1 with
    | [a, b], _ =>
      simp at h2 h3
      exact ⟨a, by omega, b, by omega, rfl⟩

/-- `sym3Dim` makes a tensor of rank three symmetric in all its indices and keeps the entries with
ascending indices, for every size. -/
theorem C32_sym3 (t : List Nat → K) (N : Nat) : Symmetrises 3 N t (sym3Dim t N N N) := by
  refine symmetrises_of perms3 3 N allOrders3 _ (fun s => ?_) t
  simp only [List.mem_flatMap, List.mem_map, List.mem_range, mem_rangeFrom]
  constructor
  · rintro ⟨a, ha, b, hb, c, hc, rfl⟩
    simp; omega
  · rintro ⟨h1, h2, h3⟩
    match s, h1 with
    | [a, b, c], _ =>
      simp at h2 h3
      exact ⟨a, by omega, b, by omega, c, by omega, rfl⟩

/-- The same for `sym4Dim` and rank four. -/
theorem C32_sym4 (t : List Nat → K) (N : Nat) : Symmetrises 4 N t (sym4Dim t N N N N) := by
  refine symmetrises_of perms4 4 N allOrders4 _ (fun s => ?_) t
  simp only [List.mem_flatMap, List.mem_map, List.mem_range, mem_rangeFrom]
  constructor
  · rintro ⟨a, ha, b, hb, c, hc, d, hd, rfl⟩
    simp; omega
  · rintro ⟨h1, h2, h3⟩
    match s, h1 with
    | [a, b, c, d], _ =>
      simp at h2 h3
      exact ⟨a, by omega, b, by omega, c, by omega, d, by omega, rfl⟩

end Sym

/-- The tensors of the potential obtained from symmetrised arrays are symmetric, so that the
derivative identities apply to them. -/
theorem C32_symmetric_tensors {K : Type} [Field K] (n : Nat) (L1 : Fin n → K)
    (t2 t3 t4 : List Nat → K) :
    Spec.Symmetric (n := n) (K := K)
      { L1 := L1
        L2 := fun i j => sym2Dim t2 n n [i, j]
        L3 := fun i j k => sym3Dim t3 n n n [i, j, k]
        L4 := fun i j k l => sym4Dim t4 n n n n [i, j, k, l] } where
  s2 i j := (C32_sym2 t2 n).2.1 _ _ rfl (by simp) (List.Perm.swap _ _ _)
  s3a i j k := (C32_sym3 t3 n).2.1 _ _ rfl (by simp) (List.Perm.swap _ _ _)
  s3b i j k := (C32_sym3 t3 n).2.1 _ _ rfl (by simp) ((List.Perm.swap _ _ _).cons _)
  s4a i j k l := (C32_sym4 t4 n).2.1 _ _ rfl (by simp) (List.Perm.swap _ _ _)
  s4b i j k l := (C32_sym4 t4 n).2.1 _ _ rfl (by simp) ((List.Perm.swap _ _ _).cons _)
  s4c i j k l := (C32_sym4 t4 n).2.1 _ _ rfl (by simp) (((List.Perm.swap _ _ _).cons _).cons _)

example : let t : List Nat → Int := fun q => q.foldl (fun r k => 10 * r + k) 0
    sym3Dim t 3 3 3 [2, 0, 1] = 12 ∧ sym3Dim t 3 3 3 [1, 2, 0] = 12 ∧
      sym3Dim t 3 3 3 [3, 0, 1] = 301 := by
  decide +kernel

end Verif.Potential
