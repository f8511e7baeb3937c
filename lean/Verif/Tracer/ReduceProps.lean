import Verif.Tracer.ReduceLoop
import Mathlib.Tactic.FinCases

/-!
# C16: moving a minimum to the principal quadrant
-/

namespace Verif.Tracer

set_option linter.unusedSectionVars false

open Spec

variable {n : Nat} {K : Type} [Field K] [LinearOrder K] [IsStrictOrderedRing K]

/-- C16: the potential is unchanged, for every potential that is invariant under the listed flips. -/
theorem C16_potential_unchanged (group : List (Mask n)) (V : Vec n K → K)
    (hV : ∀ g ∈ group, Invariant V g) (v : Vec n K) : V (reduceVEV group v) = V v := by
  obtain ⟨s, hs, e⟩ := reduceLoop_orbit (fun g => Invariant V g) (fun v => by rw [flip_id])
    (fun g h hg hh v => by rw [flip_comp, hg, hh]) group hV (-1) v
  rw [reduceVEV, e, hs]

/-- C16: the reduced point is connected to the original one by an element of every group (set of flips
closed under composition) containing the listed flips; in particular only signs change. -/
theorem C16_connected (group : List (Mask n)) (Q : Mask n → Prop) (hid : Q fun _ => false)
    (hcomp : ∀ g h, Q g → Q h → Q fun i => xor (g i) (h i)) (hQ : ∀ g ∈ group, Q g) (v : Vec n K) :
    ∃ s, Q s ∧ reduceVEV group v = flip s v ∧ ∀ i, |reduceVEV group v i| = |v i| := by
  obtain ⟨s, hs, e⟩ := reduceLoop_orbit Q hid hcomp group hQ (-1) v
  exact ⟨s, hs, e, fun i => by rw [reduceVEV, e, abs_flip]⟩

/-- C16: the symmetries are searched for among all sign flips, each considered exactly once, the
trivial one first and then by the number of flipped directions; exactly those passing the numerical
test are kept. -/
theorem C16_all_flips_considered (check : Mask n → Bool) :
    (∀ g, g ∈ findDiscreteSymmetries check ↔ check g = true) ∧
    (findDiscreteSymmetries check).Nodup ∧
    (findDiscreteSymmetries check).Pairwise (fun g h => weight g ≤ weight h) ∧
    (check (fun _ => false) = true → ∃ tl, findDiscreteSymmetries check = (fun _ => false) :: tl) := by
  refine ⟨fun g => by simp [findDiscreteSymmetries, mem_allMasks g], (nodup_allMasks n).filter _,
    (sorted_allMasks n).filter _, fun h => ?_⟩
  obtain ⟨tl, e⟩ := allMasks_cons n
  refine ⟨tl.filter check, ?_⟩
  rw [findDiscreteSymmetries, e, List.filter_cons]
  have : check idMask = true := h
  rw [if_pos this]; rfl

/-- C16, principal quadrant: under the same hypotheses as `C16_same_representative_partial`, in the
directions of every block the first entry of the reduced point that is not small is positive. -/
theorem C16_principal_quadrant_partial (bs : List (Mask n)) (hb : Blocks bs) (check : Mask n → Bool)
    (hcheck : ∀ g, check g = true ↔ IsUnion bs g) (w : Vec n K) (B : Mask n) (hB : B ∈ bs) (i : Fin n)
    (hi : B i = true) (hneg : reduceVEV (findDiscreteSymmetries check) w i ≤ -(1 / 100000)) :
    ∃ j < i, B j = true ∧ 1 / 100000 ≤ reduceVEV (findDiscreteSymmetries check) w j := by
  suffices h : ∀ B ∈ bs, Opt B (reduceVEV (findDiscreteSymmetries check) w) from h B hB i hi hneg
  clear hneg hi i hB B
  obtain ⟨hmem, hnd, hsort, hhead⟩ := C16_all_flips_considered check
  obtain ⟨tl, e⟩ := hhead ((hcheck _).2 (IsUnion.id bs))
  have hblock : ∀ B ∈ bs, IsUnion bs B := fun B hB j hj => ⟨B, hB, hj, fun _ h => h⟩
  rw [e]
  refine reduceVEV_opt bs hb tl w ?_ ?_ ?_
  · intro g hg
    exact (hcheck g).1 ((hmem g).1 (by rw [e]; simp [hg]))
  · rintro pre g post rfl B hB ⟨j, hBj, hgj⟩
    by_cases hBg : B = g
    · exact Or.inl hBg
    right
    have hg : IsUnion bs g := (hcheck g).1 ((hmem g).1 (by rw [e]; simp))
    obtain ⟨C, hC, hCj, hsub⟩ := hg j hgj
    have := hb.disjoint B hB C hC j hBj hCj
    subst this
    have hlt := weight_lt B g hsub hBg
    have hBmem : B ∈ findDiscreteSymmetries check := (hmem B).2 ((hcheck B).2 (hblock B hB))
    rw [e] at hBmem hsort
    have hne : B ≠ fun _ => false := by
      intro h; rw [h] at hBj; cases hBj
    rcases List.mem_cons.1 hBmem with h | h
    · exact absurd h hne
    · rcases List.mem_append.1 h with h | h
      · exact h
      · rcases List.mem_cons.1 h with h | h
        · exact absurd h hBg
        · have h1 := (List.pairwise_cons.1 hsort).2
          have h2 := (List.pairwise_append.1 h1).2.1
          have h3 := (List.pairwise_cons.1 h2).1 B h
          omega
  · intro B hB
    have := (hmem B).2 ((hcheck B).2 (hblock B hB))
    rw [e] at this
    exact this

/-- C16, the part about the representative that holds: if the symmetries are the flips composed of
`bs`, which act on disjoint sets of directions, and the numerical test accepts exactly those, then two
points related by a symmetry are reduced to points that agree in every direction in which the entry is
at least 1e-5 in size.  Missing: the same for other groups (false, see
`C16_representative_not_unique`). -/
theorem C16_same_representative_partial (bs : List (Mask n)) (hb : Blocks bs) (check : Mask n → Bool)
    (hcheck : ∀ g, check g = true ↔ IsUnion bs g) (t : Mask n) (ht : IsUnion bs t) (v : Vec n K)
    (i : Fin n) (hi : 1 / 100000 ≤ |v i|) :
    reduceVEV (findDiscreteSymmetries check) (flip t v) i =
      reduceVEV (findDiscreteSymmetries check) v i := by
  obtain ⟨hmem, hnd, hsort, hhead⟩ := C16_all_flips_considered check
  have hopt : ∀ w : Vec n K, ∀ B ∈ bs, Opt B (reduceVEV (findDiscreteSymmetries check) w) :=
    fun w B hB j hj hneg => C16_principal_quadrant_partial bs hb check hcheck w B hB j hj hneg
  have horb : ∀ w : Vec n K, ∃ s, IsUnion bs s ∧
      reduceVEV (findDiscreteSymmetries check) w = flip s w := fun w =>
    reduceLoop_orbit (IsUnion bs) (IsUnion.id bs) (fun _ _ => IsUnion.comp hb) _
      (fun g hg => (hcheck g).1 ((hmem g).1 hg)) (-1) w
  obtain ⟨s, hs, es⟩ := horb v
  obtain ⟨s', hs', es'⟩ := horb (flip t v)
  have hbase := hopt v
  have hflip := hopt (flip t v)
  rw [es', ← flip_comp] at hflip
  have rel : flip (comp s' t) v = flip (comp (comp s' t) s) (flip s v) := by
    rw [← flip_comp]
    congr 1
    funext k
    simp [comp]
  rw [rel] at hflip
  rw [es] at hbase
  rw [es', ← flip_comp, rel, es]
  refine opt_unique bs _ (IsUnion.comp hb (IsUnion.comp hb hs' ht) hs) (flip s v) hbase hflip i ?_
  rw [abs_flip]; exact hi

/-- The flips 0110, 1101 and 1011. -/
def exampleGroup : Mask 4 → Bool := fun g =>
  decide (g = ![false, false, false, false] ∨ g = ![false, true, true, false] ∨
    g = ![true, true, false, true] ∨ g = ![true, false, true, true])

/-- A potential with exactly the symmetries `exampleGroup` (see the next theorem). -/
def exampleV (v : Vec 4 ℚ) : ℚ := v 0 * v 1 * v 2 + v 1 * v 2 * v 3 + v 0 ^ 2 + v 1 ^ 2 + v 2 ^ 2 + v 3 ^ 2

theorem bool_quad : ∀ P : Mask 4 → Prop, (∀ a b c d, P ![a, b, c, d]) → ∀ g, P g := by
  intro P h g
  have : g = ![g 0, g 1, g 2, g 3] := by funext i; fin_cases i <;> rfl
  rw [this]; exact h _ _ _ _

/-- C16 is false for general groups: the sign flips under which `exampleV` is invariant are the four of
`exampleGroup`; the points (1,1,1,1) and (-1,-1,1,-1) are related by one of them, but are reduced to
different points, because each element is applied to the point already transformed by the previous
ones, and its measure compared with the largest so far. -/
theorem C16_representative_not_unique :
    (∀ g, exampleGroup g = true ↔ Invariant exampleV g) ∧
    exampleGroup ![true, true, false, true] = true ∧
    flip ![true, true, false, true] (![1, 1, 1, 1] : Vec 4 ℚ) = ![-1, -1, 1, -1] ∧
    reduceVEV (findDiscreteSymmetries exampleGroup) (![1, 1, 1, 1] : Vec 4 ℚ) = ![1, 1, 1, 1] ∧
    reduceVEV (findDiscreteSymmetries exampleGroup) (![-1, -1, 1, -1] : Vec 4 ℚ) = ![1, -1, -1, 1] := by
  refine ⟨?_, by decide, by decide +kernel, by decide +kernel, by decide +kernel⟩
  apply bool_quad
  intro a b c d
  constructor
  · intro h v
    cases a <;> cases b <;> cases c <;> cases d <;>
      first
      | exact absurd h (by decide)
      | (simp [flip, exampleV])
  · intro h
    have h1 := h ![1, 1, 1, 0]
    have h2 := h ![0, 1, 1, 1]
    cases a <;> cases b <;> cases c <;> cases d <;>
      first
      | decide
      | (exfalso; revert h1; decide +kernel)
      | (exfalso; revert h2; decide +kernel)

/-- Hypotheses of `C16_same_representative_partial`: in three dimensions, the first two directions
flipping together and the third one alone. -/
example : ∃ (bs : List (Mask 3)) (check : Mask 3 → Bool) (t : Mask 3), Blocks bs ∧
    (∀ g, check g = true ↔ IsUnion bs g) ∧ IsUnion bs t ∧
    reduceVEV (findDiscreteSymmetries check) (![-1, 2, -3] : Vec 3 ℚ) = ![1, -2, 3] := by
  refine ⟨[![true, true, false], ![false, false, true]], fun g => decide (IsUnion
    [![true, true, false], ![false, false, true]] g), ![true, true, true], ?_, ?_, ?_, ?_⟩
  · exact ⟨by decide, by decide⟩
  · intro g; simp
  · unfold IsUnion; decide
  · decide +kernel

end Verif.Tracer
