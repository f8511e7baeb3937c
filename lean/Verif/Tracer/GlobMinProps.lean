import Verif.Tracer.GlobMin
import Verif.Tracer.ReduceProps
import Mathlib.Data.Fin.VecNotation
import Mathlib.Tactic.Linarith
import Mathlib.Tactic.Positivity
import Mathlib.Tactic.FinCases

/-!
# C115: is a minimum the global one?
-/

namespace Verif.Tracer

open Spec

variable {n : Nat}

theorem Spec.norm_flip (g : Mask n) (v : Vec n ℝ) : l2Norm (flip g v) = l2Norm v := by
  unfold l2Norm
  congr 1
  refine Finset.sum_congr rfl fun i _ => ?_
  simp only [flip]
  split <;> ring

/-- **C115, marked minima.**  When there are no flat directions, a minimum that is marked as global has a copy within 1 GeV of
the global minimum, and the copy is obtained by flips under which the potential does not change. -/
theorem C115_marked (group : List (Mask n)) (V : Vec n ℝ → ℝ) (hV : ∀ g ∈ group, Invariant V g) (glob point : Vec n ℝ)
    (h : isGlobMin group [] glob point) :
    ∃ s, Invariant V s ∧ V (flip s point) = V point ∧ Real.sqrt (∑ i, (glob i - flip s point i) ^ 2) < 1 := by
  obtain ⟨a, ha, ea⟩ := reduceLoop_orbit (fun g => Invariant V g) (fun v => by rw [flip_id])
    (fun g h hg hh v => by rw [flip_comp, hg, hh]) group hV (-1) glob
  obtain ⟨b, hb, eb⟩ := reduceLoop_orbit (fun g => Invariant V g) (fun v => by rw [flip_id])
    (fun g h hg hh v => by rw [flip_comp, hg, hh]) group hV (-1) point
  refine ⟨comp a b, fun v => by rw [flip_comp, ha, hb], by rw [flip_comp, ha, hb], ?_⟩
  have h1 : l2Norm (fun i => flip a glob i - flip b point i) < 1 := by
    rw [← ea, ← eb]
    exact h
  have h2 : l2Norm (fun i => flip a glob i - flip b point i) = Real.sqrt (∑ i, (glob i - flip (comp a b) point i) ^ 2) := by
    unfold l2Norm
    congr 1
    refine Finset.sum_congr rfl fun i _ => ?_
    rw [flip_comp]
    simp only [flip]
    cases a i <;> cases b i <;> simp <;> ring
  rwa [← h2]

/-- **C115, copies of the global minimum.**  When the symmetries are the compositions of flips of disjoint sets of directions,
every copy of the global minimum under such a symmetry is marked as global. -/
theorem C115_copies (bs : List (Mask n)) (hbs : Blocks bs) (check : Mask n → Bool)
    (hcheck : ∀ g, check g = true ↔ IsUnion bs g) (t : Mask n) (ht : IsUnion bs t) (glob : Vec n ℝ) (hn : n ≤ 10 ^ 9) :
    isGlobMin (findDiscreteSymmetries check) [] glob (flip t glob) := by
  have hsmall : ∀ i, |reduceVEV (findDiscreteSymmetries check) glob i -
      reduceVEV (findDiscreteSymmetries check) (flip t glob) i| ≤ 2 / 100000 := by
    intro i
    by_cases hi : 1 / 100000 ≤ |glob i|
    · rw [C16_same_representative_partial bs hbs check hcheck t ht glob i hi, sub_self, abs_zero]
      norm_num
    · obtain ⟨-, -, -, h1⟩ := C16_connected (findDiscreteSymmetries check) (fun _ => True) trivial (fun _ _ _ _ => trivial)
        (fun _ _ => trivial) glob
      obtain ⟨-, -, -, h2⟩ := C16_connected (findDiscreteSymmetries check) (fun _ => True) trivial (fun _ _ _ _ => trivial)
        (fun _ _ => trivial) (flip t glob)
      have h1 := h1 i
      have h2 := h2 i
      rw [abs_flip] at h2
      have h3 := abs_sub (reduceVEV (findDiscreteSymmetries check) glob i)
        (reduceVEV (findDiscreteSymmetries check) (flip t glob) i)
      rw [h1, h2] at h3
      linarith [not_le.1 hi]
  unfold isGlobMin l2Norm
  rw [Real.sqrt_lt' one_pos]
  calc (∑ i, (fun i => convertToNonFlat [] (reduceVEV (findDiscreteSymmetries check) glob) i -
        convertToNonFlat [] (reduceVEV (findDiscreteSymmetries check) (flip t glob)) i) i *
        (fun i => convertToNonFlat [] (reduceVEV (findDiscreteSymmetries check) glob) i -
        convertToNonFlat [] (reduceVEV (findDiscreteSymmetries check) (flip t glob)) i) i)
      ≤ ∑ _i : Fin n, ((2 / 100000 : ℝ) * (2 / 100000)) := by
        refine Finset.sum_le_sum fun i _ => ?_
        have := hsmall i
        rw [← abs_mul_abs_self]
        exact mul_self_le_mul_self (abs_nonneg _) this
    _ = n * ((2 / 100000 : ℝ) * (2 / 100000)) := by simp
    _ ≤ 10 ^ 9 * ((2 / 100000 : ℝ) * (2 / 100000)) := by
        refine mul_le_mul_of_nonneg_right ?_ (by norm_num)
        exact_mod_cast hn
    _ < 1 ^ 2 := by norm_num

/-- **C115, flat directions.**  Points that differ by a rotation of a flat plane are not distinguished. -/
theorem C115_flat (i j : Fin n) (hij : i ≠ j) (glob point : Vec n ℝ) (hk : ∀ k, k ≠ i → k ≠ j → glob k = point k)
    (hr : glob i * glob i + glob j * glob j = point i * point i + point j * point j) :
    isGlobMin [] [(i, j)] glob point := by
  have h : convertToNonFlat [(i, j)] (reduceVEV [] glob) = convertToNonFlat [(i, j)] (reduceVEV [] point) := by
    funext k
    simp only [convertToNonFlat, reduceVEV, reduceLoop, List.foldl_cons, List.foldl_nil]
    by_cases h2 : k = j
    · subst h2; simp
    · by_cases h1 : k = i
      · subst h1
        simp [hij, hr]
      · simp [h1, h2, hk k h1 h2]
  unfold isGlobMin l2Norm
  rw [h]
  simp

/-- **C115, refuted.**  A minimum at a distance of `1e-5` GeV from the global one is not marked when it lies on the other side of the
threshold that decides about the sign: the two points are reduced to different signs. -/
theorem C115_neighbour_not_marked :
    ∃ (group : List (Mask 2)) (V : Vec 2 ℝ → ℝ) (glob point : Vec 2 ℝ), (∀ g ∈ group, Invariant V g) ∧
      (∀ v, V glob ≤ V v) ∧ Real.sqrt (∑ i, (glob i - point i) ^ 2) = 1 / 100000 ∧ ¬ isGlobMin group [] glob point := by
  refine ⟨[![false, false], ![true, true]],
    fun v => (v 0 * v 0 - (15 / 1000000) ^ 2) ^ 2 + (v 1 * v 1 - 200 ^ 2) ^ 2 + (v 0 * v 1 + 15 / 1000000 * 200) ^ 2,
    ![15 / 1000000, -200], ![5 / 1000000, -200], ?_, ?_, ?_, ?_⟩
  · intro g hg
    simp only [List.mem_cons, List.not_mem_nil, or_false] at hg
    rcases hg with rfl | rfl <;> intro v <;> simp [flip]
  · intro v
    have : (0 : ℝ) ≤ (v 0 * v 0 - (15 / 1000000) ^ 2) ^ 2 + (v 1 * v 1 - 200 ^ 2) ^ 2 +
      (v 0 * v 1 + 15 / 1000000 * 200) ^ 2 := by positivity
    refine le_trans (le_of_eq ?_) this
    norm_num
  · rw [Fin.sum_univ_two]
    rw [show ((![15 / 1000000, -200] : Vec 2 ℝ) 0 - (![5 / 1000000, -200] : Vec 2 ℝ) 0) ^ 2 +
      ((![15 / 1000000, -200] : Vec 2 ℝ) 1 - (![5 / 1000000, -200] : Vec 2 ℝ) 1) ^ 2 = (1 / 100000 : ℝ) ^ 2 by
        simp only [Matrix.cons_val_zero, Matrix.cons_val_one]
        norm_num]
    exact Real.sqrt_sq (by norm_num)
  · have h1 : reduceVEV [![false, false], ![true, true]] (![15 / 1000000, -200] : Vec 2 ℝ) = ![15 / 1000000, -200] := by
      funext i
      fin_cases i <;> norm_num [reduceVEV, reduceLoop, binary, heaviside, flip, List.ofFn_succ]
    have h2 : reduceVEV [![false, false], ![true, true]] (![5 / 1000000, -200] : Vec 2 ℝ) = ![-(5 / 1000000), 200] := by
      funext i
      fin_cases i <;> norm_num [reduceVEV, reduceLoop, binary, heaviside, flip, List.ofFn_succ]
    unfold isGlobMin l2Norm
    rw [h1, h2, Real.sqrt_lt' one_pos, Fin.sum_univ_two]
    simp only [convertToNonFlat, List.foldl_nil, Matrix.cons_val_zero, Matrix.cons_val_one]
    norm_num

/-- **C115, refuted.**  A minimum that is not the deepest one is marked when the deepest one is closer than 1 GeV. -/
theorem C115_other_minimum_marked :
    ∃ (V : Vec 1 ℝ → ℝ) (glob point : Vec 1 ℝ), (∀ v, V glob ≤ V v) ∧ V glob < V point ∧
      (∀ v, |v 0 - point 0| < 1 / 10 → V point ≤ V v) ∧ isGlobMin [] [] glob point := by
  refine ⟨fun v => min ((v 0) ^ 2) ((v 0 - 1 / 2) ^ 2 + 1 / 100), fun _ => 0, fun _ => 1 / 2, fun v => ?_, ?_, fun v hv => ?_, ?_⟩
  · refine le_min ?_ ?_
    · refine (min_le_left _ _).trans ?_
      have := sq_nonneg (v 0)
      linarith
    · refine (min_le_left _ _).trans ?_
      have := sq_nonneg (v 0 - 1 / 2)
      linarith
  · norm_num
  · rw [abs_lt] at hv
    refine (min_le_right _ _).trans (le_min ?_ ?_)
    · nlinarith [hv.1]
    · have := sq_nonneg (v 0 - 1 / 2)
      linarith
  · unfold isGlobMin l2Norm
    rw [Real.sqrt_lt' one_pos]
    simp only [reduceVEV, reduceLoop, convertToNonFlat, List.foldl_nil, Finset.univ_unique, Finset.sum_singleton]
    norm_num

example : isGlobMin (findDiscreteSymmetries fun _ => true) [] (fun _ : Fin 1 => (246 : ℝ))
    (flip (fun _ => true) fun _ => 246) := by
  refine C115_copies [fun _ => true] ⟨fun B hB => ⟨0, ?_⟩, fun B hB C hC _ _ _ => ?_⟩ _ (fun g => ⟨fun _ i hi => ?_, fun _ => rfl⟩) _
    (fun i _ => ?_) _ (by norm_num)
  · simp only [List.mem_singleton] at hB
    rw [hB]
  · simp only [List.mem_singleton] at hB hC
    rw [hB, hC]
  · refine ⟨fun _ => true, List.mem_singleton.2 rfl, rfl, fun j _ => ?_⟩
    rw [Subsingleton.elim j i, hi]
  · exact ⟨fun _ => true, List.mem_singleton.2 rfl, rfl, fun _ _ => rfl⟩

end Verif.Tracer
