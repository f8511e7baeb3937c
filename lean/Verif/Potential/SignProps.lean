import Verif.Potential.Sign
import Mathlib.Data.List.Nodup
import Mathlib.Data.Rat.Defs
import Mathlib.Algebra.Order.Ring.Rat
import Mathlib.Algebra.Field.Rat
import Mathlib.Tactic.NormNum
import Mathlib.Tactic.Positivity
import Mathlib.Tactic.Linarith

/-!
# Sign symmetries (C42)
-/

set_option linter.unusedSectionVars false

namespace Verif.Potential

/-- All patterns of length `n` with `c` entries -1, in lexicographic order. -/
def patterns : Nat → Nat → List (List Int)
  | 0, 0 => [[]]
  | 0, _ + 1 => []
  | n + 1, 0 => (patterns n 0).map (1 :: ·)
  | n + 1, c + 1 => (patterns n c).map (-1 :: ·) ++ (patterns n (c + 1)).map (1 :: ·)

theorem mem_patterns {n c : Nat} {p : List Int} :
    p ∈ patterns n c ↔ p.length = n ∧ (∀ x ∈ p, x = 1 ∨ x = -1) ∧ p.count (-1) = c := by
  induction n generalizing c p with
  | zero =>
    cases c with
    | zero =>
      constructor
      · intro h
        simp only [patterns, List.mem_singleton] at h
        subst h
        simp
      · rintro ⟨h, -, -⟩
        simp [patterns, List.length_eq_zero_iff.1 h]
    | succ c =>
      constructor
      · intro h; simp [patterns] at h
      · rintro ⟨h, -, hc⟩
        rw [List.length_eq_zero_iff.1 h] at hc
        simp at hc
  | succ n ih =>
    have key : ∀ c, p ∈ (patterns n c).map (1 :: ·) ↔
        ∃ q, p = 1 :: q ∧ q.length = n ∧ (∀ x ∈ q, x = 1 ∨ x = -1) ∧ q.count (-1) = c := by
      intro c
      simp only [List.mem_map, ih]
      constructor
      · rintro ⟨q, h, rfl⟩; exact ⟨q, rfl, h⟩
      · rintro ⟨q, rfl, h⟩; exact ⟨q, h, rfl⟩
    have key' : ∀ c, p ∈ (patterns n c).map (-1 :: ·) ↔
        ∃ q, p = -1 :: q ∧ q.length = n ∧ (∀ x ∈ q, x = 1 ∨ x = -1) ∧ q.count (-1) = c := by
      intro c
      simp only [List.mem_map, ih]
      constructor
      · rintro ⟨q, h, rfl⟩; exact ⟨q, rfl, h⟩
      · rintro ⟨q, rfl, h⟩; exact ⟨q, h, rfl⟩
    cases p with
    | nil => cases c <;> simp [patterns]
    | cons x q =>
      cases c with
      | zero =>
        simp only [patterns, key]
        constructor
        · rintro ⟨q', h, h1, h2, h3⟩
          obtain ⟨rfl, rfl⟩ := List.cons.inj h
          refine ⟨by simp [h1], ?_, by simp [h3]⟩
          intro y hy
          rcases List.mem_cons.1 hy with rfl | hy
          · exact Or.inl rfl
          · exact h2 y hy
        · rintro ⟨h1, h2, h3⟩
          rcases h2 x (List.mem_cons_self ..) with rfl | rfl
          · exact ⟨q, rfl, by simpa using h1, fun y hy => h2 y (List.mem_cons_of_mem _ hy),
              by simpa using h3⟩
          · simp at h3
      | succ c =>
        simp only [patterns, List.mem_append, key, key']
        constructor
        · rintro (⟨q', h, h1, h2, h3⟩ | ⟨q', h, h1, h2, h3⟩)
          · obtain ⟨rfl, rfl⟩ := List.cons.inj h
            refine ⟨by simp [h1], ?_, by simp [h3]⟩
            intro y hy
            rcases List.mem_cons.1 hy with rfl | hy
            · exact Or.inr rfl
            · exact h2 y hy
          · obtain ⟨rfl, rfl⟩ := List.cons.inj h
            refine ⟨by simp [h1], ?_, by simp [h3]⟩
            intro y hy
            rcases List.mem_cons.1 hy with rfl | hy
            · exact Or.inl rfl
            · exact h2 y hy
        · rintro ⟨h1, h2, h3⟩
          have h2' : ∀ y ∈ q, y = 1 ∨ y = -1 := fun y hy => h2 y (List.mem_cons_of_mem _ hy)
          rcases h2 x (List.mem_cons_self ..) with rfl | rfl
          · exact Or.inr ⟨q, rfl, by simpa using h1, h2', by simpa using h3⟩
          · exact Or.inl ⟨q, rfl, by simpa using h1, h2', by simpa using h3⟩

theorem nodup_patterns (n c : Nat) : (patterns n c).Nodup := by
  induction n generalizing c with
  | zero => cases c <;> simp [patterns]
  | succ n ih =>
    have hinj : ∀ x : Int, Function.Injective (fun q : List Int => x :: q) := fun x a b h => by
      simpa using h
    cases c with
    | zero => exact (ih 0).map (hinj 1)
    | succ c =>
      rw [patterns, List.nodup_append]
      refine ⟨(ih c).map (hinj (-1)), (ih (c + 1)).map (hinj 1), ?_⟩
      intro a ha b hb hab
      obtain ⟨q, -, rfl⟩ := List.mem_map.1 ha
      obtain ⟨q', -, rfl⟩ := List.mem_map.1 hb
      simp at hab

/-- The last pattern: 1 first, then -1. -/
def lastPattern (n c : Nat) : List Int := List.replicate (n - c) 1 ++ List.replicate c (-1)

theorem patterns_eq_nil {n c : Nat} (h : n < c) : patterns n c = [] := by
  rw [List.eq_nil_iff_forall_not_mem]
  intro p hp
  obtain ⟨h1, -, h3⟩ := mem_patterns.1 hp
  have := List.count_le_length (a := (-1 : Int)) (l := p)
  omega

theorem exchangeLast_neg (a c : Nat) :
    exchangeLast (-1) (List.replicate (a + 1) 1 ++ List.replicate c (-1)) =
      some (1, List.replicate a 1 ++ -1 :: List.replicate c (-1)) := by
  have h0 : ∀ c, exchangeLast (-1) (List.replicate c (-1)) = none := by
    intro c
    induction c with
    | zero => rfl
    | succ c ih => simp [List.replicate_succ, exchangeLast, ih]
  induction a with
  | zero => simp [exchangeLast, h0]
  | succ a ih =>
    rw [List.replicate_succ, List.cons_append, exchangeLast, ih]
    simp [List.replicate_succ]

theorem exchangeLast_one (l : List Int) (h : ∀ x ∈ l, x = 1 ∨ x = -1) :
    exchangeLast 1 l = none := by
  induction l with
  | nil => rfl
  | cons x l ih =>
    rw [exchangeLast, ih fun y hy => h y (List.mem_cons_of_mem _ hy)]
    rcases h x (List.mem_cons_self ..) with rfl | rfl <;> simp

theorem exchangeLast_negs (c : Nat) : exchangeLast (-1) (List.replicate c (-1)) = none := by
  induction c with
  | zero => rfl
  | succ c ih => simp [List.replicate_succ, exchangeLast, ih]

/-- The patterns form a chain under `std::next_permutation`. -/
theorem patterns_chain (n c : Nat) (h : c ≤ n) :
    ∃ l, patterns n c = startPattern n c :: l ∧
      List.IsChain (fun p q => nextPerm p = some q) (patterns n c) ∧
      (patterns n c).getLast? = some (lastPattern n c) ∧ nextPerm (lastPattern n c) = none := by
  induction n generalizing c with
  | zero =>
    obtain rfl : c = 0 := by omega
    exact ⟨[], by simp [patterns, startPattern], by simp [patterns], by simp [patterns, lastPattern],
      by simp [lastPattern, nextPerm]⟩
  | succ n ih =>
    have hmap : ∀ (x : Int) (L : List (List Int)),
        List.IsChain (fun p q => nextPerm p = some q) L →
        List.IsChain (fun p q => nextPerm p = some q) (L.map (x :: ·)) := by
      intro x L hL
      rw [List.isChain_map]
      refine hL.imp ?_
      intro a b hab
      simp [nextPerm, hab]
    have hone : ∀ c ≤ n, nextPerm (1 :: lastPattern n c) = none := by
      intro c hc
      obtain ⟨-, -, -, -, hn⟩ := ih c hc
      rw [nextPerm, hn, exchangeLast_one]
      · rfl
      · intro x hx
        simp only [lastPattern, List.mem_append, List.mem_replicate] at hx
        rcases hx with ⟨-, h⟩ | ⟨-, h⟩
        · exact Or.inl h
        · exact Or.inr h
    cases c with
    | zero =>
      obtain ⟨l, h1, h2, h3, h4⟩ := ih 0 (by omega)
      refine ⟨l.map (1 :: ·), ?_, hmap 1 _ h2, ?_, ?_⟩
      · rw [patterns, h1]
        simp [startPattern, List.replicate_succ]
      · rw [patterns, List.getLast?_map, h3]
        simp [lastPattern, List.replicate_succ]
      · have := hone 0 (by omega)
        simpa [lastPattern, List.replicate_succ] using this
    | succ c =>
      obtain ⟨l, h1, h2, h3, h4⟩ := ih c (by omega)
      by_cases hc : c + 1 ≤ n
      · obtain ⟨l', k1, k2, k3, k4⟩ := ih (c + 1) hc
        refine ⟨l.map (-1 :: ·) ++ (patterns n (c + 1)).map (1 :: ·), ?_, ?_, ?_, ?_⟩
        · rw [patterns, h1]
          simp [startPattern, List.replicate_succ]
        · rw [patterns, List.isChain_append]
          refine ⟨hmap _ _ h2, hmap _ _ k2, ?_⟩
          intro x hx y hy
          rw [List.getLast?_map, h3] at hx
          rw [k1] at hy
          simp only [Option.map_some, Option.mem_def, Option.some.injEq, List.map_cons,
            List.head?_cons] at hx hy
          subst hx hy
          rw [nextPerm, h4]
          have e : lastPattern n c =
              List.replicate (n - (c + 1) + 1) 1 ++ List.replicate c (-1) := by
            rw [lastPattern, show n - (c + 1) + 1 = n - c by omega]
          rw [e]
          simp only [exchangeLast_neg]
          simp [startPattern, List.replicate_succ']
        · rw [patterns, List.getLast?_append, List.getLast?_map, k3]
          rw [Option.map_some, Option.some_or, lastPattern, lastPattern,
            show n + 1 - (c + 1) = n - (c + 1) + 1 by omega]
          simp [List.replicate_succ]
        · have := hone (c + 1) hc
          rw [lastPattern] at this ⊢
          rw [show n + 1 - (c + 1) = n - (c + 1) + 1 by omega, List.replicate_succ,
            List.cons_append]
          exact this
      · obtain rfl : c = n := by omega
        have hnil : patterns c (c + 1) = [] := patterns_eq_nil (by omega)
        refine ⟨l.map (-1 :: ·), ?_, ?_, ?_, ?_⟩
        · rw [patterns, h1, hnil]
          simp [startPattern, List.replicate_succ]
        · rw [patterns, hnil, List.map_nil, List.append_nil]
          exact hmap _ _ h2
        · rw [patterns, hnil, List.map_nil, List.append_nil, List.getLast?_map, h3]
          simp [lastPattern, List.replicate_succ]
        · simp only [lastPattern, Nat.sub_self, List.replicate_zero, List.nil_append] at h4 ⊢
          rw [List.replicate_succ, nextPerm, h4, exchangeLast_negs]
          rfl

theorem visits_chain (L : List (List Int)) (p q : List Int)
    (hc : List.IsChain (fun p q => nextPerm p = some q) (p :: L))
    (hl : (p :: L).getLast? = some q) (hq : nextPerm q = none) (fuel : Nat)
    (hf : L.length < fuel) : visits fuel p = some (p :: L) := by
  induction L generalizing p fuel with
  | nil =>
    obtain ⟨fuel, rfl⟩ : ∃ k, fuel = k + 1 := ⟨fuel - 1, by simp at hf; omega⟩
    simp only [List.getLast?_singleton, Option.some.injEq] at hl
    subst hl
    rw [visits, hq]
  | cons r L ih =>
    obtain ⟨fuel, rfl⟩ : ∃ k, fuel = k + 1 := ⟨fuel - 1, by simp at hf; omega⟩
    rw [List.isChain_cons_cons] at hc
    rw [List.getLast?_cons_cons] at hl
    rw [visits, hc.1]
    simp only [ih r hc.2 hl fuel (by simp at hf; omega), Option.map_some]

theorem length_patterns (n c : Nat) : (patterns n c).length ≤ 2 ^ n := by
  induction n generalizing c with
  | zero => cases c <;> simp [patterns]
  | succ n ih =>
    cases c with
    | zero =>
      have := ih 0
      simp only [patterns, List.length_map, pow_succ]
      omega
    | succ c =>
      have h1 := ih c
      have h2 := ih (c + 1)
      simp only [patterns, List.length_append, List.length_map, pow_succ]
      omega

/-- The loop over the permutations ends and visits all patterns with `c` entries -1, each once. -/
theorem C42_enumeration (n c fuel : Nat) (h : c ≤ n) (hf : 2 ^ n ≤ fuel) :
    ∃ L, visits fuel (startPattern n c) = some L ∧ L.Nodup ∧
      ∀ p, p ∈ L ↔ p.length = n ∧ (∀ x ∈ p, x = 1 ∨ x = -1) ∧ p.count (-1) = c := by
  obtain ⟨l, h1, h2, h3, h4⟩ := patterns_chain n c h
  refine ⟨patterns n c, ?_, nodup_patterns n c, fun p => mem_patterns⟩
  rw [h1] at h2 h3
  have hlen := length_patterns n c
  rw [h1, List.length_cons] at hlen
  rw [visits_chain l _ _ h2 h3 h4 fuel (by omega), h1]

section

variable {K : Type} [Field K] [LinearOrder K]

theorem findSignSymmetries_eq (V : List K → Flt K) (n fuel : Nat) (hf : 2 ^ n ≤ fuel) :
    findSignSymmetries V n fuel =
      some (((List.range n).flatMap fun c => patterns n (c + 1)).filter (accepts V n)) := by
  have hm : ∀ l : List Nat, (∀ c ∈ l, c < n) →
      l.mapM (fun c => visits fuel (startPattern n (c + 1))) =
        some (l.map fun c => patterns n (c + 1)) := by
    intro l hl
    induction l with
    | nil => rfl
    | cons c l ih =>
      obtain ⟨k, h1, h2, h3, h4⟩ := patterns_chain n (c + 1) (hl c (List.mem_cons_self ..))
      have hlen := length_patterns n (c + 1)
      rw [h1] at h2 h3 hlen
      rw [List.length_cons] at hlen
      have hv := visits_chain k _ _ h2 h3 h4 fuel (by omega)
      rw [List.mapM_cons, hv, ih fun c' hc' => hl c' (List.mem_cons_of_mem _ hc')]
      simp [h1]
  rw [findSignSymmetries, hm _ fun c hc => List.mem_range.1 hc, Option.map_some, List.flatMap]

/-- A sign pattern is reported iff it has a negative sign and the potential at the reflected test
point is a number that agrees with the reference to one part in a thousand. -/
theorem C42_reported (V : List K → Flt K) (n fuel : Nat) (hf : 2 ^ n ≤ fuel) :
    ∃ R, findSignSymmetries V n fuel = some R ∧ ∀ p, p ∈ R ↔
      (p.length = n ∧ (∀ x ∈ p, x = 1 ∨ x = -1) ∧ -1 ∈ p) ∧
      ∃ a r, V (List.zipWith (fun (s : Int) (x : K) => (s : K) * x) p
          ((List.range n).map fun i : Nat => (i : K) + 1)) = .fin a ∧
        V ((List.range n).map fun i : Nat => (i : K) + 1) = .fin r ∧ |a - r| ≤ 1 / 1000 * |r| := by
  refine ⟨_, findSignSymmetries_eq V n fuel hf, ?_⟩
  intro p
  rw [List.mem_filter, List.mem_flatMap]
  have hacc : accepts V n p = true ↔ ∃ a r, V (flip p (testVEV n)) = .fin a ∧
      V (testVEV n) = .fin r ∧ |a - r| ≤ 1 / 1000 * |r| := by
    unfold accepts
    cases hA : V (flip p (testVEV n)) <;> cases hB : V (testVEV n) <;> simp
  rw [hacc]
  refine and_congr ?_ Iff.rfl
  constructor
  · rintro ⟨c, hc, hp⟩
    obtain ⟨h1, h2, h3⟩ := mem_patterns.1 hp
    exact ⟨h1, h2, List.count_pos_iff.1 (by omega)⟩
  · rintro ⟨h1, h2, h3⟩
    have hpos := List.count_pos_iff.2 h3
    have hle := List.count_le_length (a := (-1 : Int)) (l := p)
    exact ⟨p.count (-1) - 1, List.mem_range.2 (by omega),
      mem_patterns.2 ⟨h1, h2, by omega⟩⟩

/-- No pattern is reported twice. -/
theorem C42_once (V : List K → Flt K) (n fuel : Nat) (hf : 2 ^ n ≤ fuel) :
    ∃ R, findSignSymmetries V n fuel = some R ∧ R.Nodup := by
  refine ⟨_, findSignSymmetries_eq V n fuel hf, List.Nodup.filter _ ?_⟩
  rw [List.nodup_flatMap]
  refine ⟨fun c _ => nodup_patterns n (c + 1), ?_⟩
  have : List.Pairwise (fun a b : Nat => a ≠ b) (List.range n) := List.nodup_range
  refine this.imp ?_
  intro a b hab p hp hp'
  have h1 := (mem_patterns.1 hp).2.2
  have h2 := (mem_patterns.1 hp').2.2
  omega

/-- Every exact symmetry is reported if the potential at the test point is a number. -/
theorem C42_symmetries_found [IsStrictOrderedRing K] (V : List K → Flt K) (n fuel : Nat)
    (hf : 2 ^ n ≤ fuel) (p : List Int) (hp : p.length = n) (hs : ∀ x ∈ p, x = 1 ∨ x = -1)
    (hneg : -1 ∈ p)
    (hsym : ∀ v : List K, V (List.zipWith (fun (s : Int) (x : K) => (s : K) * x) p v) = V v)
    (r : K) (hr : V ((List.range n).map fun i : Nat => (i : K) + 1) = .fin r) :
    ∃ R, findSignSymmetries V n fuel = some R ∧ p ∈ R := by
  obtain ⟨R, h1, h2⟩ := C42_reported V n fuel hf
  refine ⟨R, h1, (h2 p).2 ⟨⟨hp, hs, hneg⟩, r, r, ?_, hr, ?_⟩⟩
  · rw [hsym, hr]
  · rw [sub_self, abs_zero]
    exact mul_nonneg (by positivity) (abs_nonneg r)

end

/-- The converse fails: one test point and a relative tolerance of one in a thousand accept the
reflection of `10⁴ + x` (a symmetric potential with a small explicit breaking). -/
theorem C42_accidental :
    ∃ V : List ℚ → Flt ℚ, findSignSymmetries V 1 2 = some [[-1]] ∧ ∀ x, x ≠ 0 → V [-x] ≠ V [x] := by
  refine ⟨fun l => .fin (10000 + l.headD 0), by decide +kernel, ?_⟩
  intro x hx h
  injection h with h
  simp only [List.headD_cons] at h
  apply hx
  linarith

/-- A potential that is NaN at the test point has no symmetries. -/
theorem C42_nan (V : List ℚ → Flt ℚ) (n fuel : Nat) (hf : 2 ^ n ≤ fuel)
    (h : V (testVEV n) = .nan) : findSignSymmetries V n fuel = some [] := by
  rw [findSignSymmetries_eq V n fuel hf]
  congr 1
  rw [List.filter_eq_nil_iff]
  intro p _
  unfold accepts
  rw [h]
  cases V (flip p (testVEV n)) <;> simp

/-- The symmetries of `x² + y² + x²y`: only the reflection of `y` is broken. -/
example : findSignSymmetries (fun l : List ℚ => .fin ((l.getD 0 0) ^ 2 + (l.getD 1 0) ^ 2 +
    (l.getD 0 0) ^ 2 * l.getD 1 0)) 2 4 = some [[-1, 1]] := by decide +kernel

end Verif.Potential
