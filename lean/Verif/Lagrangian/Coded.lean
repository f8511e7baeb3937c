import Verif.Lagrangian.Drops
import Verif.Potential.SymProps

/-!
# Symmetry of tensors given for all orders of the indices

The values of a list of assignments are numbered, so that the symmetry is a statement about the
numbers.
-/

set_option linter.unusedSectionVars false

namespace Verif.Lagrangian

open Verif.Potential
open Verif.Potential.Spec (Symmetrises)

variable {K : Type} [Field K]

/-- A list of assignments of numbered values. -/
def coded (val : Nat → K) (codes : List (List Nat × Nat)) : Assign K :=
  codes.map fun e => (e.1, val e.2)

theorem look_coded (val : Nat → K) (codes : List (List Nat × Nat)) (q : List Nat) :
    look (coded val codes) q = ((codes.lookup q).map val).getD 0 := by
  induction codes with
  | nil => rfl
  | cons e codes ih =>
    rw [look, coded, List.map_cons, List.lookup_cons, List.lookup_cons]
    cases h : q == e.1
    · exact ih
    · rfl

theorem mem_of_lookup {codes : List (List Nat × Nat)} {q : List Nat} {c : Nat}
    (h : codes.lookup q = some c) : (q, c) ∈ codes := by
  induction codes with
  | nil => cases h
  | cons e codes ih =>
    rw [List.lookup_cons] at h
    cases hq : q == e.1
    · rw [hq] at h
      exact List.mem_cons_of_mem _ (ih h)
    · rw [hq] at h
      have h1 : q = e.1 := by simpa using hq
      have h2 : e.2 = c := by simpa using h
      rw [h1, ← h2]
      exact List.mem_cons_self

/-- The numbers do not change under an exchange of indices if this holds for the entries of the
list. -/
theorem lookup_swap (L : List Nat → Option Nat) (es : List (List Nat × Nat))
    (h : ∀ q c, L q = some c → (q, c) ∈ es) (f : List Nat → List Nat) (hf : ∀ q, f (f q) = q)
    (hc : ∀ e ∈ es, L (f e.1) = some e.2) (q : List Nat) : L (f q) = L q := by
  have key : ∀ q c, L q = some c → L (f q) = some c := fun q c hq => hc _ (h q c hq)
  cases hq : L q with
  | some c => exact key q c hq
  | none =>
    cases hfq : L (f q) with
    | none => rfl
    | some c =>
      have := key _ _ hfq
      rw [hf, hq] at this
      cases this

theorem look_coded_swap (val : Nat → K) (codes : List (List Nat × Nat)) (f : List Nat → List Nat)
    (hf : ∀ q, f (f q) = q) (hc : ∀ e ∈ codes, codes.lookup (f e.1) = some e.2) (q : List Nat) :
    look (coded val codes) (f q) = look (coded val codes) q := by
  rw [look_coded, look_coded,
    lookup_swap (fun q => codes.lookup q) codes (fun _ _ => mem_of_lookup) f hf hc]

/-- The number in lists split by the first index. -/
def blockLookup (bs : List (List (List Nat × Nat))) : List Nat → Option Nat
  | [] => none
  | i :: q => (bs.getD i []).lookup (i :: q)

theorem look_blocks (val : Nat → K) (bs : List (List (List Nat × Nat)))
    (h : Blocked 0 (bs.map (coded val))) (i : Nat) (q : List Nat) :
    look (bs.map (coded val)).flatten (i :: q) = ((blockLookup bs (i :: q)).map val).getD 0 := by
  have := blocked_look _ 0 h i q
  rw [Nat.zero_add] at this
  rw [this, List.getD_eq_getElem?_getD, List.getElem?_map]
  rw [show blockLookup bs (i :: q) = (bs.getD i []).lookup (i :: q) from rfl,
    List.getD_eq_getElem?_getD]
  cases bs[i]? with
  | none => rfl
  | some b => exact look_coded val b (i :: q)

theorem mem_of_blockLookup {bs : List (List (List Nat × Nat))} (q : List Nat) (c : Nat)
    (h : blockLookup bs q = some c) : (q, c) ∈ bs.flatten := by
  cases q with
  | nil => cases h
  | cons i q =>
    rw [show blockLookup bs (i :: q) = (bs.getD i []).lookup (i :: q) from rfl,
      List.getD_eq_getElem?_getD] at h
    cases hb : bs[i]? with
    | none => rw [hb] at h; cases h
    | some b =>
      rw [hb] at h
      exact List.mem_flatten.2 ⟨b, List.mem_of_getElem? hb, mem_of_lookup h⟩

/-- The symmetry of lists split by the first index, tested with the numbers. -/
def symmetricBlocks (bs : List (List (List Nat × Nat))) (f : List Nat → List Nat) : Bool :=
  bs.all fun b => b.all fun e => blockLookup bs (f e.1) == some e.2

theorem blocks_swap (bs : List (List (List Nat × Nat))) (f : List Nat → List Nat)
    (hf : ∀ q, f (f q) = q) (hc : symmetricBlocks bs f = true) (q : List Nat) :
    blockLookup bs (f q) = blockLookup bs q := by
  refine lookup_swap _ bs.flatten mem_of_blockLookup f hf ?_ q
  intro e he
  obtain ⟨b, hb, heb⟩ := List.mem_flatten.1 he
  simpa using List.all_eq_true.1 (List.all_eq_true.1 hc b hb) e heb

/-- Exchange of the indices in the middle. -/
def swapMid : List Nat → List Nat
  | [a, b, i, j] => [a, i, b, j]
  | q => q

theorem swapMid_swapMid (q : List Nat) : swapMid (swapMid q) = q :=
  match q with
  | [] => rfl
  | [_] => rfl
  | [_, _] => rfl
  | [_, _, _] => rfl
  | [_, _, _, _] => rfl
  | _ :: _ :: _ :: _ :: _ :: _ => rfl

/-- Exchange of the first two of three indices. -/
def swapLeft : List Nat → List Nat
  | [a, b, c] => [b, a, c]
  | q => q

/-- Exchange of the last two of three indices. -/
def swapRight : List Nat → List Nat
  | [a, b, c] => [a, c, b]
  | q => q

theorem swapLeft_swapLeft (q : List Nat) : swapLeft (swapLeft q) = q :=
  match q with
  | [] => rfl
  | [_] => rfl
  | [_, _] => rfl
  | [_, _, _] => rfl
  | _ :: _ :: _ :: _ :: _ => rfl

theorem swapRight_swapRight (q : List Nat) : swapRight (swapRight q) = q :=
  match q with
  | [] => rfl
  | [_] => rfl
  | [_, _] => rfl
  | [_, _, _] => rfl
  | _ :: _ :: _ :: _ :: _ => rfl

/-! ### The symmetry of the parts of the potential -/

/-- The order of two indices does not matter. -/
def Sym2 (n : Nat) (t : List Nat → K) : Prop := ∀ i < n, ∀ j < n, t [i, j] = t [j, i]

/-- The order of three indices does not matter. -/
def Sym3 (n : Nat) (t : List Nat → K) : Prop := ∀ i < n, ∀ j < n, ∀ k < n,
  t [i, j, k] = t [j, i, k] ∧ t [i, j, k] = t [i, k, j]

/-- The order of four indices does not matter. -/
def Sym4 (n : Nat) (t : List Nat → K) : Prop := ∀ i < n, ∀ j < n, ∀ k < n, ∀ l < n,
  t [i, j, k, l] = t [j, i, k, l] ∧ t [i, j, k, l] = t [i, k, j, l] ∧
    t [i, j, k, l] = t [i, j, l, k]

theorem symmetric_curv {n : Nat} (t1 t2 t3 t4 : List Nat → K) (h2 : Sym2 n t2) (h3 : Sym3 n t3)
    (h4 : Sym4 n t4) : Potential.Spec.Symmetric (curv n t1 t2 t3 t4) where
  s2 i j := h2 i i.isLt j j.isLt
  s3a i j k := (h3 i i.isLt j j.isLt k k.isLt).1
  s3b i j k := (h3 i i.isLt j j.isLt k k.isLt).2
  s4a i j k l := (h4 i i.isLt j j.isLt k k.isLt l l.isLt).1
  s4b i j k l := (h4 i i.isLt j j.isLt k k.isLt l l.isLt).2.1
  s4c i j k l := (h4 i i.isLt j j.isLt k k.isLt l l.isLt).2.2

theorem sym3_zero (n : Nat) : Sym3 n (zeroTensor : List Nat → K) :=
  fun _ _ _ _ _ _ => ⟨rfl, rfl⟩

theorem sym2_of_symmetrises {n : Nat} {t t' : List Nat → K} (h : Symmetrises 2 n t t') :
    Sym2 n t' := by
  intro i hi j hj
  exact h.2.1 _ _ rfl (by simp [hi, hj]) (List.Perm.swap _ _ _)

theorem sym4_of_symmetrises {n : Nat} {t t' : List Nat → K} (h : Symmetrises 4 n t t') :
    Sym4 n t' := by
  intro i hi j hj k hk l hl
  refine ⟨h.2.1 _ _ rfl ?_ (List.Perm.swap _ _ _),
    h.2.1 _ _ rfl ?_ ((List.Perm.swap _ _ _).cons _),
    h.2.1 _ _ rfl ?_ (((List.Perm.swap _ _ _).cons _).cons _)⟩ <;> simp [hi, hj, hk, hl]

theorem sym2_coded (n : Nat) (w : Assign K) (hd : Distinct w) (val : Nat → K)
    (codes : List (List Nat × Nat)) (hw : w = coded val codes)
    (hc : ∀ e ∈ codes, codes.lookup e.1.reverse = some e.2) : Sym2 n (assign w zeroTensor) := by
  intro i _ j _
  rw [assign_look w hd, hw]
  exact look_coded_swap val codes List.reverse List.reverse_reverse hc [j, i]

theorem sym3_coded (n : Nat) (w : Assign K) (hd : Distinct w) (val : Nat → K)
    (codes : List (List Nat × Nat)) (hw : w = coded val codes)
    (hc : ∀ e ∈ codes, codes.lookup (swapLeft e.1) = some e.2 ∧
      codes.lookup (swapRight e.1) = some e.2) : Sym3 n (assign w zeroTensor) := by
  intro i _ j _ k _
  rw [assign_look w hd, hw]
  exact ⟨look_coded_swap val codes swapLeft swapLeft_swapLeft (fun e he => (hc e he).1) [j, i, k],
    look_coded_swap val codes swapRight swapRight_swapRight (fun e he => (hc e he).2) [i, k, j]⟩

theorem sym4_coded (n : Nat) (w : Assign K) (hd : Distinct w) (val : Nat → K)
    (codes : List (List Nat × Nat)) (hw : w = coded val codes)
    (hc : ∀ e ∈ codes, codes.lookup (swapFirst e.1) = some e.2 ∧
      codes.lookup (swapMid e.1) = some e.2 ∧ codes.lookup (swapLast e.1) = some e.2) :
    Sym4 n (assign w zeroTensor) := by
  intro i _ j _ k _ l _
  rw [assign_look w hd, hw]
  exact ⟨look_coded_swap val codes swapFirst swapFirst_swapFirst (fun e he => (hc e he).1)
      [j, i, k, l],
    look_coded_swap val codes swapMid swapMid_swapMid (fun e he => (hc e he).2.1) [i, k, j, l],
    look_coded_swap val codes swapLast swapLast_swapLast (fun e he => (hc e he).2.2) [i, j, l, k]⟩

theorem sym4_blocks (n : Nat) (ws : List (Assign K)) (hb : Blocked 0 ws) (val : Nat → K)
    (bs : List (List (List Nat × Nat))) (hw : ws = bs.map (coded val))
    (h1 : symmetricBlocks bs swapFirst = true) (h2 : symmetricBlocks bs swapMid = true)
    (h3 : symmetricBlocks bs swapLast = true) : Sym4 n (assign ws.flatten zeroTensor) := by
  intro i _ j _ k _ l _
  rw [assign_look _ (blocked_distinct ws 0 hb)]
  subst hw
  rw [look_blocks val bs hb, look_blocks val bs hb, look_blocks val bs hb, look_blocks val bs hb]
  refine ⟨?_, ?_, ?_⟩
  · rw [← blocks_swap bs swapFirst swapFirst_swapFirst h1 [j, i, k, l]]; rfl
  · rw [← blocks_swap bs swapMid swapMid_swapMid h2 [i, k, j, l]]; rfl
  · rw [← blocks_swap bs swapLast swapLast_swapLast h3 [i, j, l, k]]; rfl

end Verif.Lagrangian
