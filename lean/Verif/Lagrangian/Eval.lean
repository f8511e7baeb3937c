import Verif.Lagrangian.Tensor
import Mathlib.Tactic.FinCases
import Mathlib.Tactic.LinearCombination

/-!
# Evaluation of assigned tensors at given indices
-/

set_option linter.unusedSectionVars false

namespace Verif.Lagrangian

open Verif.Potential
open Verif.Potential.Spec (polynomial Symmetrises)

section

variable {K : Type} [Field K] {n : Nat}

/-- The value assigned to a position, zero if there is none. -/
def look (w : Assign K) (q : List Nat) : K := (w.lookup q).getD 0

/-- The value assigned to the ascending order of the position. -/
def lookSym (w : Assign K) (q : List Nat) : K := look w (q.insertionSort (· ≤ ·))

theorem sumT_look (w : Assign K) (h : Distinct w) (q : List Nat) : sumT w q = look w q := by
  induction w with
  | nil => simp [sumT, look]
  | cons e w ih =>
    have hd := List.nodup_cons.1 h
    rw [sumT_cons, ih hd.2]
    obtain ⟨p, x⟩ := e
    by_cases hq : q = p
    · subst hq
      rw [if_pos rfl]
      have h0 : look w q = 0 := by rw [← ih hd.2, sumT_notin _ _ hd.1]
      rw [h0, add_zero]
      simp [look, List.lookup]
    · have hb : (q == p) = false := by simpa using hq
      rw [if_neg hq, zero_add]
      simp [look, List.lookup, hb]

theorem assign_look (w : Assign K) (h : Distinct w) : assign w zeroTensor = look w := by
  rw [assign_eq w h]
  funext q
  exact sumT_look w h q

theorem symmetrised_look (d N : Nat) (w : Assign K) (hd : Distinct w)
    (t : List Nat → K) (h : Symmetrises d N (assign w zeroTensor) t) (q : List Nat)
    (hq : q.length = d) (hN : ∀ k ∈ q, k < N) : t q = lookSym w q := by
  rw [symmetrised_eq d N w hd t h q hq hN, sumT_look w hd, lookSym]

/-- Two sets of tensors with the same entries at the indices of the fields. -/
theorem curv_congr {l1 l2 l3 l4 m1 m2 m3 m4 : List Nat → K}
    (h1 : ∀ i < n, l1 [i] = m1 [i]) (h2 : ∀ i < n, ∀ j < n, l2 [i, j] = m2 [i, j])
    (h3 : ∀ i < n, ∀ j < n, ∀ k < n, l3 [i, j, k] = m3 [i, j, k])
    (h4 : ∀ i < n, ∀ j < n, ∀ k < n, ∀ l < n, l4 [i, j, k, l] = m4 [i, j, k, l]) :
    curv n l1 l2 l3 l4 = curv n m1 m2 m3 m4 := by
  unfold curv
  congr 1
  · funext i; exact h1 i i.isLt
  · funext i j; exact h2 i i.isLt j j.isLt
  · funext i j k; exact h3 i i.isLt j j.isLt k k.isLt
  · funext i j k l; exact h4 i i.isLt j j.isLt k k.isLt l l.isLt

theorem symmetrised4_curv (l1 l2 l3 : List Nat → K) (w : Assign K) (hd : Distinct w)
    (t : List Nat → K) (h : Symmetrises 4 n (assign w zeroTensor) t) :
    curv n l1 l2 l3 t = curv n l1 l2 l3 (lookSym w) := by
  refine curv_congr (fun _ _ => rfl) (fun _ _ _ _ => rfl) (fun _ _ _ _ _ _ => rfl) ?_
  intro i hi j hj k hk l hl
  refine symmetrised_look 4 n w hd t h _ rfl ?_
  simp [hi, hj, hk, hl]

theorem symmetrised2_curv (l1 l3 l4 : List Nat → K) (w : Assign K) (hd : Distinct w)
    (t : List Nat → K) (h : Symmetrises 2 n (assign w zeroTensor) t) :
    curv n l1 t l3 l4 = curv n l1 (lookSym w) l3 l4 := by
  refine curv_congr (fun _ _ => rfl) ?_ (fun _ _ _ _ _ _ => rfl) (fun _ _ _ _ _ _ _ _ => rfl)
  intro i hi j hj
  refine symmetrised_look 2 n w hd t h _ rfl ?_
  simp [hi, hj]

theorem lookSym_expand (w : Assign K) (hd : Distinct w) (ha : Ascending w) :
    lookSym w = sumT (expand w) := by
  funext q
  rw [sumT_expand w ha, sumT_look w hd, lookSym]

/-- The potential of tensors whose quartic part was given for ascending indices. -/
theorem polynomial_sym (w1 w2 w3 w4 : Assign K) (d1 : Distinct w1) (d2 : Distinct w2)
    (d3 : Distinct w3) (d4 : Distinct w4) (a4 : Ascending w4) (h1 : Rank 1 w1) (h2 : Rank 2 w2)
    (h3 : Rank 3 w3) (h4 : Rank 4 w4) (v : FVec n K) :
    polynomial (curv n (look w1) (look w2) (look w3) (lookSym w4)) v =
      terms w1 (ext v) + 1 / 2 * terms w2 (ext v) + 1 / 6 * terms w3 (ext v) +
        1 / 24 * (w4.map fun e => e.2 * (((mult e.1 : Nat) : K) * (e.1.map (ext v)).prod)).sum := by
  have e1 : look w1 = sumT w1 := by funext q; exact (sumT_look w1 d1 q).symm
  have e2 : look w2 = sumT w2 := by funext q; exact (sumT_look w2 d2 q).symm
  have e3 : look w3 = sumT w3 := by funext q; exact (sumT_look w3 d3 q).symm
  rw [e1, e2, e3, lookSym_expand w4 d4 a4,
    polynomial_of_sumT w1 w2 w3 (expand w4) h1 h2 h3 (rank_expand 4 w4 h4), terms_expand]

/-- The potential of tensors given for all orders of the indices. -/
theorem polynomial_look (w1 w2 w3 w4 : Assign K) (d1 : Distinct w1) (d2 : Distinct w2)
    (d3 : Distinct w3) (d4 : Distinct w4) (h1 : Rank 1 w1) (h2 : Rank 2 w2)
    (h3 : Rank 3 w3) (h4 : Rank 4 w4) (v : FVec n K) :
    polynomial (curv n (look w1) (look w2) (look w3) (look w4)) v =
      terms w1 (ext v) + 1 / 2 * terms w2 (ext v) + 1 / 6 * terms w3 (ext v) +
        1 / 24 * terms w4 (ext v) := by
  have e1 : look w1 = sumT w1 := by funext q; exact (sumT_look w1 d1 q).symm
  have e2 : look w2 = sumT w2 := by funext q; exact (sumT_look w2 d2 q).symm
  have e3 : look w3 = sumT w3 := by funext q; exact (sumT_look w3 d3 q).symm
  have e4 : look w4 = sumT w4 := by funext q; exact (sumT_look w4 d4 q).symm
  rw [e1, e2, e3, e4, polynomial_of_sumT w1 w2 w3 w4 h1 h2 h3 h4]

/-- The contraction of a tensor of rank four with fields of different kinds. -/
theorem contract_look {n1 n2 n3 n4 : Nat} (w : Assign K) (hd : Distinct w) (a : FVec n1 K)
    (b : FVec n2 K) (c : FVec n3 K) (d : FVec n4 K) :
    ∑ i : Fin n1, ∑ j : Fin n2, ∑ k : Fin n3, ∑ l : Fin n4,
        assign w zeroTensor [(i : Nat), (j : Nat), (k : Nat), (l : Nat)] *
          (a i * (b j * (c k * d l))) =
      (w.map fun e => match e.1 with
        | [p, q, r, s] => e.2 * (ext a p * (ext b q * (ext c r * ext d s))) | _ => 0).sum := by
  rw [assign_eq w hd]
  exact sumT_four w a b c d

theorem look_mem (w : Assign K) (hd : Distinct w) {e : List Nat × K} (he : e ∈ w) :
    look w e.1 = e.2 := by
  induction w with
  | nil => cases he
  | cons a w ih =>
    rw [Distinct, List.map_cons, List.nodup_cons] at hd
    rw [look, List.lookup_cons]
    rcases List.mem_cons.1 he with rfl | h
    · simp
    · have hne : e.1 ≠ a.1 := fun hq => hd.1 (hq ▸ List.mem_map_of_mem h)
      have : (e.1 == a.1) = false := by simpa using hne
      rw [this]
      exact ih hd.2 h

theorem look_not_mem (w : Assign K) {q : List Nat} (hq : q ∉ w.map (·.1)) : look w q = 0 := by
  induction w with
  | nil => rfl
  | cons a w ih =>
    rw [List.map_cons, List.mem_cons, not_or] at hq
    have : (q == a.1) = false := by simpa using hq.1
    rw [look, List.lookup_cons, this]
    exact ih hq.2

/-- A tensor is symmetric under an exchange of indices if the entries of its list are. -/
theorem look_swap (w : Assign K) (hd : Distinct w) (f : List Nat → List Nat)
    (hf : ∀ q, f (f q) = q) (h : ∀ e ∈ w, look w (f e.1) = e.2) (q : List Nat) :
    look w (f q) = look w q := by
  by_cases h1 : q ∈ w.map (·.1)
  · obtain ⟨e, he, rfl⟩ := List.mem_map.1 h1
    rw [h e he, look_mem w hd he]
  · by_cases h2 : f q ∈ w.map (·.1)
    · obtain ⟨e, he, hq⟩ := List.mem_map.1 h2
      have h3 := h e he
      rw [hq, hf] at h3
      have h4 := look_mem w hd he
      rw [hq] at h4
      rw [h3, h4]
    · rw [look_not_mem w h1, look_not_mem w h2]

/-- Exchange of the first two indices. -/
def swapFirst : List Nat → List Nat
  | [a, b, i, j] => [b, a, i, j]
  | q => q

/-- Exchange of the last two indices. -/
def swapLast : List Nat → List Nat
  | [a, b, i, j] => [a, b, j, i]
  | q => q

theorem swapFirst_swapFirst (q : List Nat) : swapFirst (swapFirst q) = q :=
  match q with
  | [] => rfl
  | [_] => rfl
  | [_, _] => rfl
  | [_, _, _] => rfl
  | [_, _, _, _] => rfl
  | _ :: _ :: _ :: _ :: _ :: _ => rfl

theorem swapLast_swapLast (q : List Nat) : swapLast (swapLast q) = q :=
  match q with
  | [] => rfl
  | [_] => rfl
  | [_, _] => rfl
  | [_, _, _] => rfl
  | [_, _, _, _] => rfl
  | _ :: _ :: _ :: _ :: _ :: _ => rfl

theorem zero_look : (zeroTensor : List Nat → K) = look [] := rfl

theorem distinct_nil : Distinct ([] : Assign K) := List.nodup_nil

/-- The indices as the digits of a number. -/
def digits (q : List Nat) : Nat := q.foldl (fun a x => a * 10 + x) 0

/-- A list in ascending order of the indices has no repetitions. -/
theorem distinct_of_sorted (w : Assign K)
    (h : (w.map fun e => digits e.1).Pairwise (· < ·)) : Distinct w := by
  have h1 : ((w.map (·.1)).map digits).Nodup := by
    rw [List.map_map]
    exact h.imp (fun hab => Nat.ne_of_lt hab)
  exact h1.of_map

theorem distinct_of_chain (w : Assign K)
    (h : (w.map fun e => digits e.1).IsChain (· < ·)) : Distinct w :=
  distinct_of_sorted w (List.isChain_iff_pairwise.1 h)

theorem rank_nil (d : Nat) : Rank d ([] : Assign K) := by intro e he; cases he

theorem rank_of (d : Nat) (w : Assign K) (h : ∀ q ∈ w.map (·.1), q.length = d) : Rank d w :=
  fun _ he => h _ (List.mem_map_of_mem he)

theorem ascending_of (w : Assign K) (h : ∀ q ∈ w.map (·.1), q.Pairwise (· ≤ ·)) : Ascending w :=
  fun _ he => h _ (List.mem_map_of_mem he)

/-! ### Vacua with few nonvanishing components -/

theorem sum_support1 (a : Fin n) (v : FVec n K) (hv : ∀ k, k ≠ a → v k = 0) (f : Fin n → K)
    (hf : ∀ k, v k = 0 → f k = 0) : ∑ k, f k = f a := by
  refine Finset.sum_eq_single a (fun k _ hk => hf k (hv k hk)) (by simp)

theorem sum_support2 (a b : Fin n) (hab : a ≠ b) (v : FVec n K)
    (hv : ∀ k, k ≠ a → k ≠ b → v k = 0) (f : Fin n → K)
    (hf : ∀ k, v k = 0 → f k = 0) : ∑ k, f k = f a + f b := by
  rw [← Finset.sum_pair hab]
  symm
  refine Finset.sum_subset (Finset.subset_univ _) fun k _ hk => ?_
  simp only [Finset.mem_insert, Finset.mem_singleton, not_or] at hk
  exact hf k (hv k hk.1 hk.2)

theorem sum_support3 (a b c : Fin n) (hab : a ≠ b) (hac : a ≠ c) (hbc : b ≠ c) (v : FVec n K)
    (hv : ∀ k, k ≠ a → k ≠ b → k ≠ c → v k = 0) (f : Fin n → K)
    (hf : ∀ k, v k = 0 → f k = 0) : ∑ k, f k = f a + f b + f c := by
  have : f a + f b + f c = ∑ k ∈ ({a, b, c} : Finset (Fin n)), f k := by
    rw [Finset.sum_insert (by simp [hab, hac]), Finset.sum_pair hbc, add_assoc]
  rw [this]
  symm
  refine Finset.sum_subset (Finset.subset_univ _) fun k _ hk => ?_
  simp only [Finset.mem_insert, Finset.mem_singleton, not_or] at hk
  exact hf k (hv k hk.1 hk.2.1 hk.2.2)

/-- Gradient and Hesse matrix when the sums over the fields reduce to given sums `S`. -/
theorem grad_reduce (c : Curv n K) (v : FVec n K) (S : (Fin n → K) → K)
    (hS : ∀ f : Fin n → K, (∀ k, v k = 0 → f k = 0) → ∑ k, f k = S f) (i : Fin n) :
    grad c v i = c.L1 i + S fun j => (c.L2 i j * v j + S fun k =>
      (1 / 2 * c.L3 i j k * v j * v k + S fun l => 1 / 6 * c.L4 i j k l * v j * v k * v l)) := by
  have h3 : ∀ j k, (∑ l, 1 / 6 * c.L4 i j k l * v j * v k * v l) =
      S fun l => 1 / 6 * c.L4 i j k l * v j * v k * v l :=
    fun j k => hS _ (fun l hl => by rw [hl, mul_zero])
  have h2 : ∀ j, (∑ k, (1 / 2 * c.L3 i j k * v j * v k +
      ∑ l, 1 / 6 * c.L4 i j k l * v j * v k * v l)) =
      S fun k => (1 / 2 * c.L3 i j k * v j * v k + S fun l => 1 / 6 * c.L4 i j k l * v j * v k * v l) := by
    intro j
    rw [hS _ (fun k hk => by simp [hk])]
    congr 1
    funext k
    rw [h3]
  rw [grad, hS _ (fun j hj => by simp [hj])]
  congr 2
  funext j
  rw [h2]

theorem hess_reduce (c : Curv n K) (v : FVec n K) (S : (Fin n → K) → K)
    (hS : ∀ f : Fin n → K, (∀ k, v k = 0 → f k = 0) → ∑ k, f k = S f) (i j : Fin n) :
    hessianCT c v i j = c.L2 i j + S fun k => (c.L3 i j k * v k +
      S fun l => 1 / 2 * c.L4 i j k l * v k * v l) := by
  rw [hessianCT, hS _ (fun k hk => by simp [hk])]
  congr 2
  funext k
  rw [hS _ (fun l hl => by simp [hl])]

end

theorem orders_eq (s : List Nat) : orders s = s.permutations'.dedup := rfl

theorem mult_of_pattern (f : Nat → Nat) (hf : Function.Injective f) (s : List Nat) :
    mult (s.map f) = mult s := by
  unfold mult orders
  have hp : (s.map f).permutations' = s.permutations'.map (List.map f) := by
    rw [List.map_permutations']
  rw [hp, List.dedup_map_of_injective (List.map_injective_iff.2 hf), List.length_map]

/-- The number of different orders of four ascending indices. -/
theorem mult_quad (a b c d : Nat) (hab : a ≤ b) (hbc : b ≤ c) (hcd : c ≤ d) :
    mult [a, b, c, d] =
      if a = b then
        if b = c then if c = d then 1 else 4 else if c = d then 6 else 12
      else if b = c then if c = d then 4 else 12 else if c = d then 12 else 24 := by
  have key : ∀ (x y z w : Nat), x < y → y < z → z < w → ∃ f : Nat → Nat, Function.Injective f ∧
      f 0 = x ∧ f 1 = y ∧ f 2 = z ∧ f 3 = w := by
    intro x y z w h1 h2 h3
    refine ⟨fun k => if k = 0 then x else if k = 1 then y else if k = 2 then z else w + (k - 3),
      ?_, rfl, rfl, rfl, rfl⟩
    intro i j hij
    dsimp only at hij
    split_ifs at hij <;> omega
  have use : ∀ (x y z w : Nat), x < y → y < z → z < w → ∀ s t : List Nat,
      (∀ f : Nat → Nat, f 0 = x → f 1 = y → f 2 = z → f 3 = w → s.map f = t) → mult t = mult s := by
    intro x y z w h1 h2 h3 s t h
    obtain ⟨f, hf, e0, e1, e2, e3⟩ := key x y z w h1 h2 h3
    rw [← h f e0 e1 e2 e3]
    exact mult_of_pattern f hf s
  by_cases h1 : a = b <;> by_cases h2 : b = c <;> by_cases h3 : c = d
  · subst h1 h2 h3
    rw [use a (a + 1) (a + 2) (a + 3) (by omega) (by omega) (by omega) [0, 0, 0, 0] _
      (by intro f e0 e1 e2 e3; simp [e0])]
    simp; decide
  · subst h1 h2
    rw [use a d (d + 1) (d + 2) (by omega) (by omega) (by omega) [0, 0, 0, 1] _
      (by intro f e0 e1 e2 e3; simp [e0, e1])]
    simp [h3]; decide
  · subst h1 h3
    rw [use a c (c + 1) (c + 2) (by omega) (by omega) (by omega) [0, 0, 1, 1] _
      (by intro f e0 e1 e2 e3; simp [e0, e1])]
    simp [h2]; decide
  · subst h1
    rw [use a c d (d + 1) (by omega) (by omega) (by omega) [0, 0, 1, 2] _
      (by intro f e0 e1 e2 e3; simp [e0, e1, e2])]
    simp [h2, h3]; decide
  · subst h2 h3
    rw [use a b (b + 1) (b + 2) (by omega) (by omega) (by omega) [0, 1, 1, 1] _
      (by intro f e0 e1 e2 e3; simp [e0, e1])]
    simp [h1]; decide
  · subst h2
    rw [use a b d (d + 1) (by omega) (by omega) (by omega) [0, 1, 1, 2] _
      (by intro f e0 e1 e2 e3; simp [e0, e1, e2])]
    simp [h1, h3]; decide
  · subst h3
    rw [use a b c (c + 1) (by omega) (by omega) (by omega) [0, 1, 2, 2] _
      (by intro f e0 e1 e2 e3; simp [e0, e1, e2])]
    simp [h1, h2]; decide
  · rw [use a b c d (by omega) (by omega) (by omega) [0, 1, 2, 3] _
      (by intro f e0 e1 e2 e3; simp [e0, e1, e2, e3])]
    simp [h1, h2, h3]; decide

end Verif.Lagrangian
