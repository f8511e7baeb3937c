import Verif.Tracer.Geometry
import Mathlib.Tactic.Linarith
import Mathlib.Tactic.Ring
import Mathlib.Tactic.NormNum
import Mathlib.Algebra.Order.Ring.Abs
import Mathlib.Data.Fin.Basic

/-!
# Lemmas on binary numbers and sign flips
-/

namespace Verif.Tracer

set_option linter.unusedSectionVars false

theorem binary_foldl (l : List Bool) (acc : Nat) :
    l.foldl (fun acc b => 2 * acc + (if b then 1 else 0)) acc = acc * 2 ^ l.length + binary l := by
  induction l generalizing acc with
  | nil => simp [binary]
  | cons b l ih =>
    simp only [binary, List.foldl_cons, List.length_cons]
    rw [ih, ih]
    ring

theorem binary_cons (b : Bool) (l : List Bool) :
    binary (b :: l) = (if b then 2 ^ l.length else 0) + binary l := by
  have := binary_foldl l (if b then 1 else 0)
  simp only [binary, List.foldl_cons, Nat.mul_zero, Nat.zero_add] at this ⊢
  rw [this]
  cases b <;> simp

theorem binary_lt_pow (l : List Bool) : binary l < 2 ^ l.length := by
  induction l with
  | nil => simp [binary]
  | cons b l ih =>
    rw [binary_cons, List.length_cons, pow_succ]
    cases b <;> simp <;> omega

/-- Binary numbers of the same length are compared at the first place where they differ. -/
theorem binary_ofFn_lt {n : Nat} (f g : Fin n → Bool) :
    binary (List.ofFn f) < binary (List.ofFn g) ↔
      ∃ i, f i = false ∧ g i = true ∧ ∀ j < i, f j = g j := by
  induction n with
  | zero => simp
  | succ n ih =>
    have ih' := ih (fun i => f i.succ) (fun i => g i.succ)
    rw [List.ofFn_succ, List.ofFn_succ, binary_cons, binary_cons]
    have hf := binary_lt_pow (List.ofFn fun i => f i.succ)
    have hg := binary_lt_pow (List.ofFn fun i => g i.succ)
    simp only [List.length_ofFn] at hf hg ⊢
    have hcast : ∀ (P : Fin (n + 1) → Prop), (∃ i, P i) ↔ P 0 ∨ ∃ i : Fin n, P i.succ :=
      fun P => Fin.exists_fin_succ
    rw [hcast]
    have hall : ∀ i : Fin n, (∀ j < i.succ, f j = g j) ↔
        f 0 = g 0 ∧ ∀ j < i, f j.succ = g j.succ := by
      intro i
      rw [Fin.forall_fin_succ]
      simp
    simp only [hall]
    cases hf0 : f 0 <;> cases hg0 : g 0
    · simpa using ih'
    · simp; omega
    · simp; omega
    · simpa using ih'

theorem binary_ofFn_eq_max {n : Nat} (f : Fin n → Bool) (h : binary (List.ofFn f) = 2 ^ n - 1) :
    ∀ i, f i = true := by
  induction n with
  | zero => intro i; exact i.elim0
  | succ n ih =>
    rw [List.ofFn_succ, binary_cons] at h
    have hf := binary_lt_pow (List.ofFn fun i => f i.succ)
    simp only [List.length_ofFn] at hf h
    have hp : 2 ^ (n + 1) = 2 * 2 ^ n := by rw [pow_succ]; ring
    have h1 : 1 ≤ 2 ^ n := Nat.one_le_two_pow
    cases hf0 : f 0
    · rw [hf0] at h; simp at h; omega
    · rw [hf0] at h
      simp only [if_true] at h
      have := ih (fun i => f i.succ) (by omega)
      intro i
      refine Fin.cases ?_ ?_ i
      · exact hf0
      · exact this

section

variable {n : Nat} {K : Type} [Field K] [LinearOrder K] [IsStrictOrderedRing K]

/-- Composition of two sign flips. -/
def comp (g h : Mask n) : Mask n := fun i => xor (g i) (h i)

/-- The trivial flip. -/
def idMask : Mask n := fun _ => false

omit [LinearOrder K] [IsStrictOrderedRing K] in
theorem flip_comp (g h : Mask n) (v : Vec n K) : flip (comp g h) v = flip g (flip h v) := by
  funext i
  simp only [flip, comp]
  by_cases hg : g i = true <;> by_cases hh : h i = true <;> simp [hg, hh]

omit [LinearOrder K] [IsStrictOrderedRing K] in
theorem flip_id (v : Vec n K) : flip idMask v = v := by
  funext i; simp [flip, idMask]

theorem abs_flip (g : Mask n) (v : Vec n K) (i : Fin n) : |flip g v i| = |v i| := by
  simp only [flip]; split <;> simp

/-- The bit of an entry. -/
def bit (x : K) : Bool := decide (1 / 100000 ≤ x)

omit [IsStrictOrderedRing K] in
theorem heaviside_eq (v : Vec n K) : heaviside v = List.ofFn fun i => bit (v i) := rfl

omit [IsStrictOrderedRing K] in
theorem measure_lt (v w : Vec n K) : binary (heaviside v) < binary (heaviside w) ↔
    ∃ i, bit (v i) = false ∧ bit (w i) = true ∧ ∀ j < i, bit (v j) = bit (w j) := by
  rw [heaviside_eq, heaviside_eq, binary_ofFn_lt]

/-! ### The loop -/

/-- Whatever it does, the loop applies elements of any set of flips that is closed under composition
and contains the given ones. -/
theorem reduceLoop_orbit (Q : Mask n → Prop) (hid : Q idMask) (hcomp : ∀ g h, Q g → Q h → Q (comp g h))
    (gs : List (Mask n)) (hgs : ∀ g ∈ gs, Q g) (m : Int) (v : Vec n K) :
    ∃ s, Q s ∧ reduceLoop gs m v = flip s v := by
  induction gs generalizing m v with
  | nil => exact ⟨idMask, hid, by rw [flip_id]; rfl⟩
  | cons g gs ih =>
    have hg : Q g := hgs g (by simp)
    have ih' := fun m v => ih (fun h hh => hgs h (by simp [hh])) m v
    rw [reduceLoop]
    by_cases hb : ((binary (heaviside (flip g v)) : Nat) : Int) > m
    · simp only [if_pos hb]
      split
      · exact ⟨g, hg, rfl⟩
      · obtain ⟨s, hs, e⟩ := ih' _ (flip g v)
        exact ⟨comp s g, hcomp s g hs hg, by rw [e, flip_comp]⟩
    · simp only [if_neg hb]
      split
      · exact ⟨idMask, hid, by rw [flip_id]⟩
      · exact ih' _ v

/-- In the directions of `B` the first entry that is not small is positive. -/
def Opt (B : Mask n) (w : Vec n K) : Prop :=
  ∀ i, B i = true → w i ≤ -(1 / 100000) → ∃ j < i, B j = true ∧ 1 / 100000 ≤ w j

theorem bit_true (x : K) : bit x = true ↔ 1 / 100000 ≤ x := by simp [bit]
theorem bit_false (x : K) : bit x = false ↔ x < 1 / 100000 := by simp [bit]

theorem opt_of_flipped (B : Mask n) (w : Vec n K)
    (h : binary (heaviside w) < binary (heaviside (flip B w))) : Opt B (flip B w) := by
  rw [measure_lt] at h
  obtain ⟨i, h1, h2, h3⟩ := h
  intro k hk hneg
  have hBi : B i = true := by
    by_contra hn
    have e : flip B w i = w i := by simp [flip, hn]
    rw [e, h1] at h2; cases h2
  have ek : flip B w k = -w k := by simp [flip, hk]
  rw [ek] at hneg
  rcases lt_trichotomy k i with hlt | heq | hgt
  · have := h3 k hlt
    rw [ek] at this
    have e1 : bit (w k) = true := (bit_true _).2 (by linarith)
    have e2 : bit (-w k) = false := (bit_false _).2 (by
      have : (0 : K) < 1 / 100000 := by norm_num
      linarith)
    rw [e1, e2] at this; cases this
  · subst heq
    rw [bit_false] at h1
    have : (0 : K) < 1 / 100000 := by norm_num
    linarith
  · exact ⟨i, hgt, hBi, (bit_true _).1 h2⟩

theorem opt_of_not_flipped (B : Mask n) (w : Vec n K)
    (h : ¬ binary (heaviside w) < binary (heaviside (flip B w))) : Opt B w := by
  intro i
  induction i using WellFoundedLT.induction with
  | _ i ih =>
    intro hB hneg
    by_contra hno
    apply h
    rw [measure_lt]
    have hpos : (0 : K) < 1 / 100000 := by norm_num
    refine ⟨i, (bit_false _).2 (by linarith), ?_, ?_⟩
    · have e : flip B w i = -w i := by simp [flip, hB]
      rw [e, bit_true]; linarith
    · intro j hj
      by_cases hBj : B j = true
      · have e : flip B w j = -w j := by simp [flip, hBj]
        have h1 : w j < 1 / 100000 := by
          by_contra hc
          exact hno ⟨j, hj, hBj, not_lt.1 hc⟩
        have h2 : -(1 / 100000) < w j := by
          by_contra hc
          obtain ⟨k, hk, hBk, hwk⟩ := ih j hj hBj (not_lt.1 hc)
          exact hno ⟨k, lt_trans hk hj, hBk, hwk⟩
        rw [e, (bit_false _).2 h1, (bit_false _).2 (by linarith)]
      · have e : flip B w j = w j := by simp [flip, hBj]
        rw [e]

theorem union_not_flipped (bs : List (Mask n)) (g : Mask n) (w : Vec n K)
    (hcov : ∀ i, g i = true → ∃ B ∈ bs, B i = true ∧ (∀ j, B j = true → g j = true) ∧ Opt B w) :
    ¬ binary (heaviside w) < binary (heaviside (flip g w)) := by
  rw [measure_lt]
  rintro ⟨i, h1, h2, h3⟩
  have hpos : (0 : K) < 1 / 100000 := by norm_num
  have hgi : g i = true := by
    by_contra hn
    have e : flip g w i = w i := by simp [flip, hn]
    rw [e, h1] at h2; cases h2
  obtain ⟨B, _, hBi, hsub, hopt⟩ := hcov i hgi
  have e : flip g w i = -w i := by simp [flip, hgi]
  rw [e, bit_true] at h2
  obtain ⟨j, hj, hBj, hwj⟩ := hopt i hBi (by linarith)
  have e2 : flip g w j = -w j := by simp [flip, hsub j hBj]
  have := h3 j hj
  rw [e2, (bit_true _).2 hwj, (bit_false _).2 (by linarith)] at this
  cases this

theorem opt_congr (B : Mask n) (w w' : Vec n K) (h : ∀ i, B i = true → w i = w' i) (ho : Opt B w) :
    Opt B w' := by
  intro i hi hneg
  rw [← h i hi] at hneg
  obtain ⟨j, hj, hBj, hwj⟩ := ho i hi hneg
  exact ⟨j, hj, hBj, by rw [← h j hBj]; exact hwj⟩

end

end Verif.Tracer
