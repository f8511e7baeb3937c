import Verif.Check.Model
import Verif.Check.Spec
import Mathlib.Data.Fintype.Perm
import Mathlib.Tactic.FinCases
import Mathlib.Data.Fin.VecNotation
import Mathlib.Tactic.Push

/-!
# Lemmas about the checks of the tensors
-/

set_option linter.unusedSectionVars false
set_option linter.unusedSimpArgs false

namespace Verif.Check

open Outcome Spec

/-- The comparison `!=` is false for equal numbers only. -/
class LawfulNe (E : Type) [Comparable E] [HasNaN E] : Prop where
  ne_false : ∀ a b : E, Comparable.ne a b = false ↔ a = b ∧ HasNaN.number a

theorem flt_ne_false {α : Type} [LinearOrder α] (a b : Flt α) :
    Flt.ne a b = false ↔ a = b ∧ a ≠ .nan := by
  cases a <;> cases b <;> simp [Flt.ne]

instance (α : Type) [LinearOrder α] : LawfulNe (Flt α) := ⟨flt_ne_false⟩

instance (α : Type) [LinearOrder α] : LawfulNe (Cplx α) := ⟨fun a b => by
  obtain ⟨a1, a2⟩ := a
  obtain ⟨b1, b2⟩ := b
  change (Flt.ne a1 b1 || Flt.ne a2 b2) = false ↔ _ ∧ (a1 ≠ .nan ∧ a2 ≠ .nan)
  rw [Bool.or_eq_false_iff, flt_ne_false, flt_ne_false, Prod.mk.injEq]
  constructor
  · rintro ⟨⟨h1, h2⟩, h3, h4⟩; exact ⟨⟨h1, h3⟩, h2, h4⟩
  · rintro ⟨⟨h1, h3⟩, h2, h4⟩; exact ⟨⟨h1, h2⟩, h3, h4⟩⟩

theorem verdict_true {p : Prop} (h : p) : verdict p = .pass := if_pos h
theorem verdict_false {p : Prop} (h : ¬ p) : verdict p = .fail := if_neg h
theorem verdict_congr {p q : Prop} (h : p ↔ q) : verdict p = verdict q := by rw [propext h]

theorem verdict_pass {p : Prop} : verdict p = .pass ↔ p := by
  by_cases h : p
  · rw [verdict_true h]; simp [h]
  · rw [verdict_false h]; simp [h]

theorem scan_eq {ι : Type} (l : List ι) (f : ι → Outcome TestResult) (p : ι → Prop)
    (h : ∀ x ∈ l, f x = ok (verdict (p x))) : scan l f = ok (verdict (∀ x ∈ l, p x)) := by
  induction l with
  | nil => simp [scan, verdict_true]
  | cons x xs ih =>
    have hx := h x (by simp)
    have ih := ih fun y hy => h y (by simp [hy])
    rw [scan.eq_def]
    simp only [hx]
    by_cases hp : p x
    · simp only [verdict_true hp]
      rw [ih]
      exact congrArg ok (verdict_congr (by simp [hp]))
    · simp only [verdict_false hp]
      rw [verdict_false]
      intro hall
      exact hp (hall x (by simp))

theorem scan_range {n : Nat} (f : Nat → Outcome TestResult) (p : Fin n → Prop)
    (h : ∀ i : Fin n, f i = ok (verdict (p i))) :
    scan (List.range n) f = ok (verdict (∀ i, p i)) := by
  rw [scan_eq (List.range n) f (fun i => ∀ h : i < n, p ⟨i, h⟩)]
  · exact congrArg ok (verdict_congr
      ⟨fun H i => H i (List.mem_range.2 i.2) i.2, fun H i _ hi => H ⟨i, hi⟩⟩)
  · intro i hi
    have hi := List.mem_range.1 hi
    rw [h ⟨i, hi⟩]
    exact congrArg ok (verdict_congr ⟨fun H _ => H, fun H => H hi⟩)

theorem at'_ofFn {E : Type} {n : Nat} (f : Fin n → E) (i : Fin n) :
    at' (List.ofFn f) (i : Nat) = ok (f i) := by
  rw [at'_of_lt (by simp)]
  simp

variable {E : Type}

theorem get2_table {m n : Nat} (t : Fin m → Fin n → E) (i : Fin m) (j : Fin n) :
    get2 (table2 t) i j = ok (t i j) := by
  rw [get2, table2, at'_ofFn, bind_ok, at'_ofFn]

theorem get3_table {m n o : Nat} (t : Fin m → Fin n → Fin o → E) (i : Fin m) (j : Fin n)
    (k : Fin o) : get3 (table3 t) i j k = ok (t i j k) := by
  rw [get3, table3, at'_ofFn, bind_ok, get2_table]

theorem get4_table {m n o p : Nat} (t : Fin m → Fin n → Fin o → Fin p → E) (i : Fin m) (j : Fin n)
    (k : Fin o) (l : Fin p) : get4 (table4 t) i j k l = ok (t i j k l) := by
  rw [get4, table4, at'_ofFn, bind_ok, get3_table]

theorem ofFn_of {A S : Type} {n : Nat} (T : List A) (g : S → A) (hn : T.length = n)
    (h : ∀ r ∈ T, ∃ s, r = g s) : ∃ t : Fin n → S, T = List.ofFn fun i => g (t i) := by
  subst hn
  choose t ht using fun i : Fin T.length => h T[i] (List.getElem_mem _)
  refine ⟨t, ?_⟩
  conv_lhs => rw [← List.ofFn_getElem (xs := T)]
  exact congrArg List.ofFn (funext fun i => ht i)

theorem shape1 {n : Nat} (r : List E) (hn : r.length = n) : ∃ t : Fin n → E, r = List.ofFn t :=
  ofFn_of r id hn fun x _ => ⟨x, rfl⟩

theorem shape2 {m n : Nat} (T : List (List E)) (hm : T.length = m) (hn : ∀ r ∈ T, r.length = n) :
    ∃ t : Fin m → Fin n → E, T = table2 t :=
  ofFn_of T (fun t : Fin n → E => List.ofFn t) hm fun r hr => shape1 r (hn r hr)

theorem shape3 {m n o : Nat} (T : List (List (List E))) (hm : T.length = m)
    (hn : ∀ r ∈ T, r.length = n) (ho : ∀ r ∈ T, ∀ s ∈ r, s.length = o) :
    ∃ t : Fin m → Fin n → Fin o → E, T = table3 t :=
  ofFn_of T (fun t : Fin n → Fin o → E => table2 t) hm fun r hr => shape2 r (hn r hr) (ho r hr)

theorem shape4 {m n o p : Nat} (T : List (List (List (List E)))) (hm : T.length = m)
    (hn : ∀ r ∈ T, r.length = n) (ho : ∀ r ∈ T, ∀ s ∈ r, s.length = o)
    (hp : ∀ r ∈ T, ∀ s ∈ r, ∀ u ∈ s, u.length = p) :
    ∃ t : Fin m → Fin n → Fin o → Fin p → E, T = table4 t :=
  ofFn_of T (fun t : Fin n → Fin o → Fin p → E => table3 t) hm fun r hr =>
    shape3 r (hn r hr) (ho r hr) (hp r hr)

theorem length_table2 {m n : Nat} (t : Fin m → Fin n → E) : (table2 t).length = m := by
  simp [table2]

theorem length_table3 {m n o : Nat} (t : Fin m → Fin n → Fin o → E) : (table3 t).length = m := by
  simp [table3]

theorem length_table4 {m n o p : Nat} (t : Fin m → Fin n → Fin o → Fin p → E) :
    (table4 t).length = m := by
  simp [table4]

theorem mem_table2 {m n : Nat} (t : Fin m → Fin n → E) {r : List E} (h : r ∈ table2 t) :
    ∃ i, r = List.ofFn (t i) := by
  rw [table2, List.mem_ofFn] at h
  exact h.imp fun i hi => hi.symm

theorem mem_table3 {m n o : Nat} (t : Fin m → Fin n → Fin o → E) {r : List (List E)}
    (h : r ∈ table3 t) : ∃ i, r = table2 (t i) := by
  rw [table3, List.mem_ofFn] at h
  exact h.imp fun i hi => hi.symm

theorem mem_table4 {m n o p : Nat} (t : Fin m → Fin n → Fin o → Fin p → E)
    {r : List (List (List E))} (h : r ∈ table4 t) : ∃ i, r = table3 (t i) := by
  rw [table4, List.mem_ofFn] at h
  exact h.imp fun i hi => hi.symm

theorem ofFn_injective {A : Type} {n : Nat} {f g : Fin n → A} (h : List.ofFn f = List.ofFn g) :
    f = g := List.ofFn_injective h

theorem table2_injective {m n : Nat} {t u : Fin m → Fin n → E} (h : table2 t = table2 u) :
    t = u := funext fun i => ofFn_injective (congrFun (ofFn_injective h) i)

theorem table3_injective {m n o : Nat} {t u : Fin m → Fin n → Fin o → E} (h : table3 t = table3 u) :
    t = u := funext fun i => table2_injective (congrFun (ofFn_injective h) i)

theorem table4_injective {m n o p : Nat} {t u : Fin m → Fin n → Fin o → Fin p → E}
    (h : table4 t = table4 u) : t = u :=
  funext fun i => table3_injective (congrFun (ofFn_injective h) i)

variable [Comparable E] [HasNaN E] [LawfulNe E]

theorem differs_eq (a b : E) : differs a b = verdict (a = b ∧ HasNaN.number a) := by
  rw [differs]
  by_cases h : Comparable.ne a b = false
  · rw [verdict_true ((LawfulNe.ne_false a b).1 h), h]; rfl
  · rw [verdict_false fun H => h ((LawfulNe.ne_false a b).2 H)]
    simp only [Bool.not_eq_false] at h
    simp only [h, if_true]

/-- The permutations of three indices, in the order of the code. -/
def orders3 : List (Fin 3 × Fin 3 × Fin 3) :=
  [(0, 2, 1), (1, 0, 2), (1, 2, 0), (2, 0, 1), (2, 1, 0)]

theorem orders3_all : ∀ σ : Equiv.Perm (Fin 3), (σ 0, σ 1, σ 2) = (0, 1, 2) ∨
    (σ 0, σ 1, σ 2) ∈ orders3 := by
  decide +kernel

theorem orders3_perm : ∀ p ∈ orders3, ∃ σ : Equiv.Perm (Fin 3), (σ 0, σ 1, σ 2) = p := by
  decide +kernel

/-- The permutations of four indices, in the order of the code. -/
def orders4 : List (Fin 4 × Fin 4 × Fin 4 × Fin 4) :=
  [(0, 1, 2, 3), (0, 1, 3, 2), (0, 2, 1, 3), (0, 2, 3, 1), (0, 3, 1, 2), (0, 3, 2, 1),
   (1, 0, 2, 3), (1, 0, 3, 2), (1, 2, 0, 3), (1, 2, 3, 0), (1, 3, 0, 2), (1, 3, 2, 0),
   (2, 0, 1, 3), (2, 0, 3, 1), (2, 1, 0, 3), (2, 1, 3, 0), (2, 3, 0, 1), (2, 3, 1, 0),
   (3, 0, 1, 2), (3, 0, 2, 1), (3, 1, 0, 2), (3, 1, 2, 0), (3, 2, 0, 1), (3, 2, 1, 0)]

theorem orders4_all : ∀ σ : Equiv.Perm (Fin 4), (σ 0, σ 1, σ 2, σ 3) = (0, 1, 2, 3) ∨
    (σ 0, σ 1, σ 2, σ 3) ∈ orders4.drop 1 := by
  decide +kernel

theorem orders4_perm : ∀ p ∈ orders4.drop 1,
    ∃ σ : Equiv.Perm (Fin 4), (σ 0, σ 1, σ 2, σ 3) = p := by
  decide +kernel

theorem orders4_eq {n : Nat} (x : Fin 4 → Fin n) :
    (permutationOrders (x 0) (x 1) (x 2) (x 3)).drop 1 =
      (orders4.drop 1).map fun p => (((x p.1 : Fin n) : Nat), ((x p.2.1 : Fin n) : Nat),
        ((x p.2.2.1 : Fin n) : Nat), ((x p.2.2.2 : Fin n) : Nat)) := rfl

theorem scan_map {ι κ : Type} (l : List ι) (g : ι → κ) (f : κ → Outcome TestResult) :
    scan (l.map g) f = scan l fun x => f (g x) := by
  induction l with
  | nil => rfl
  | cons x xs ih => rw [List.map_cons, scan.eq_def, scan.eq_def]; simp only [ih]

end Verif.Check
