import Verif.Third.Assemble
import Verif.Weinberg.Props

/-!
# The third derivatives of the Coleman-Weinberg potential are its true derivatives (C103)
-/

namespace Verif.Weinberg

open Matrix Verif.Potential Verif.Invariance
open scoped BigOperators
open Spec (Regular Apart Clean Lawful ThirdDerivatives)

variable {n : Nat} {S : Solver} {X : Vectors} {T : Tensors n} {v : Fin n → ℝ}

/-! ### Symmetry -/

section

variable {𝕜 : Type} [RCLike 𝕜] (P : Fin n → Fin n → Fin n → 𝕜)

theorem thirdSym_swap12 (i j k : Fin n) : thirdSym P j i k = thirdSym P i j k := by
  unfold thirdSym; ring

theorem thirdSym_swap23 (i j k : Fin n) : thirdSym P i k j = thirdSym P i j k := by
  unfold thirdSym; ring

end

theorem thirdStorage_swap12 (p : Physical n) (scale : ℝ) (i j k : Fin n) :
    thirdStorage p scale j i k = thirdStorage p scale i j k := by
  unfold thirdStorage
  simp only [thirdSym_swap12 _ i j k]

theorem thirdStorage_swap23 (p : Physical n) (scale : ℝ) (i j k : Fin n) :
    thirdStorage p scale i k j = thirdStorage p scale i j k := by
  unfold thirdStorage
  simp only [thirdSym_swap23 _ i j k]

theorem thirdRaw_swap12 (p : Physical n) (scale : ℝ) (l m q : Fin n) :
    thirdRaw p scale m l q = thirdRaw p scale l m q := by
  unfold thirdRaw
  rw [Finset.sum_comm]
  congr 1
  refine Finset.sum_congr rfl fun i _ => Finset.sum_congr rfl fun j _ => Finset.sum_congr rfl fun k _ => ?_
  rw [thirdStorage_swap12]
  ring

theorem thirdRaw_swap23 (p : Physical n) (scale : ℝ) (l m q : Fin n) :
    thirdRaw p scale l q m = thirdRaw p scale l m q := by
  unfold thirdRaw
  congr 1
  refine Finset.sum_congr rfl fun i _ => ?_
  rw [Finset.sum_comm]
  refine Finset.sum_congr rfl fun j _ => Finset.sum_congr rfl fun k _ => ?_
  rw [thirdStorage_swap23]
  ring

/-! ### The claims -/

/-- **Third derivatives.**  The numbers that `WeinbergThirdDerivative` returns are the third derivatives of the
Coleman-Weinberg potential at the vacuum, apart from entries smaller than `10⁻¹⁰`, which are set to zero.  The mass
spectrum may be degenerate, and particles may be massless. -/
theorem C103_third (hS : S.Correct) (hX : X.Correct S) (hT : Lawful T) {t scale : ℝ} (ht : 1 / 10 ^ 8 ≤ t)
    (hm : Regular t T v) (hc : Clean X T v) (hd : Apart T v) :
    ∃ W3, ThirdDerivatives (Spec.potential t scale T) v W3 ∧
      weinbergThird (some (physicalCouplings S X T v)) scale =
        .ok fun l m q => .fin (if |W3 l m q| < 1 / 10 ^ 10 then 0 else W3 l m q) := by
  refine ⟨_, third_derivatives hS hT ht hm hd hX hc, ?_⟩
  have t0 : 0 < t := lt_of_lt_of_le (by norm_num) ht
  unfold weinbergThird
  simp only [if_neg (not_negative (X := X) hS hT t0 hm), if_neg (not_throws (X := X) hS hT ht hm hd)]
  rfl

/-- They are the third derivatives of `V1Loop` at zero temperature if every particle is massless or has a squared
mass above `10⁻⁴`. -/
theorem C103_loop (hS : S.Correct) (hX : X.Correct S) (hT : Lawful T) {scale : ℝ}
    (hm : Regular (1 / 10 ^ 4) T v) (hc : Clean X T v) (hd : Apart T v) (JB JF : Thermal) :
    ∃ W3, ThirdDerivatives (fun φ => v1Loop (T.spectra S scale JB JF) φ 0 0) v W3 ∧
      weinbergThird (some (physicalCouplings S X T v)) scale =
        .ok fun l m q => .fin (if |W3 l m q| < 1 / 10 ^ 10 then 0 else W3 l m q) := by
  obtain ⟨W3, h, e⟩ := C103_third hS hX hT (t := 1 / 10 ^ 4) (scale := scale) (by norm_num) hm hc hd
  refine ⟨W3, h.congr (funext fun φ => (v1Loop_eq hS T hT scale JB JF φ).symm) fun _ _ _ => rfl, e⟩

/-- **Symmetry.**  For any masses and couplings the result does not depend on the order of the three fields. -/
theorem C103_symmetric (p : Physical n) (scale : ℝ) (W3 : Fin n → Fin n → Fin n → Flt ℝ)
    (h : weinbergThird (some p) scale = .ok W3) (l m q : Fin n) :
    W3 m l q = W3 l m q ∧ W3 l q m = W3 l m q := by
  unfold weinbergThird at h
  dsimp only at h
  split_ifs at h
  · have := Outcome.ok.inj h
    subst this
    exact ⟨rfl, rfl⟩
  · have := Outcome.ok.inj h
    subst this
    dsimp only
    rw [thirdRaw_swap12 p scale l m q, thirdRaw_swap23 p scale l m q]
    exact ⟨rfl, rfl⟩

theorem finRange_flatMap {α : Type} {k : Nat} : ∀ {n : Nat} {f : Fin n → List α}, (∀ i, (f i).length = k) →
    ∀ (i : Fin n) (j : Nat), j < k → ((List.finRange n).flatMap f)[i.1 * k + j]? = (f i)[j]? := by
  intro n
  induction n with
  | zero => exact fun _ i => i.elim0
  | succ n ih =>
    intro f hf i j hj
    rw [List.finRange_succ, List.flatMap_cons, List.flatMap_map]
    refine Fin.cases ?_ (fun i => ?_) i
    · rw [List.getElem?_append_left (by rw [hf]; simpa using hj)]
      simp
    · rw [List.getElem?_append_right (by rw [hf, Fin.val_succ]; nlinarith [Nat.zero_le (i.1 * k)]), hf]
      rw [show i.succ.1 * k + j - k = i.1 * k + j by rw [Fin.val_succ, add_mul]; omega]
      exact ih (f := fun i => f i.succ) (fun i => hf _) i j hj

theorem length_flatMap {α : Type} {k n : Nat} {f : Fin n → List α} (hf : ∀ i, (f i).length = k) :
    ((List.finRange n).flatMap f).length = n * k := by
  simp [List.length_flatMap, hf]

/-- **Order of the vector.**  The entry for the fields `l`, `m` and `q` is at the position `l n² + m n + q` of the
vector of length `n³`. -/
theorem C103_vector (p : Physical n) (scale : ℝ) (W3 : Fin n → Fin n → Fin n → Flt ℝ)
    (h : weinbergThird (some p) scale = .ok W3) :
    ∃ L, weinbergThirdVector (some p) scale = .ok L ∧ L.length = n ^ 3 ∧
      ∀ l m q : Fin n, L[l.1 * n ^ 2 + m.1 * n + q.1]? = some (W3 l m q) := by
  refine ⟨_, by rw [weinbergThirdVector, h], ?_, fun l m q => ?_⟩
  · rw [length_flatMap (k := n ^ 2), pow_succ' n 2]
    intro l
    rw [length_flatMap (k := n), pow_two]
    intro m
    simp
  · rw [add_assoc, finRange_flatMap (k := n ^ 2), finRange_flatMap (k := n)]
    · simp
    · intro i; simp
    · exact q.2
    · intro i
      rw [length_flatMap (k := n), pow_two]
      intro m
      simp
    · have hm := m.2
      have hq := q.2
      calc m.1 * n + q.1 < m.1 * n + n := by omega
        _ = (m.1 + 1) * n := by ring
        _ ≤ n * n := Nat.mul_le_mul_right n hm
        _ = n ^ 2 := (pow_two n).symm

/-- The derivatives are refused before the couplings have been calculated. -/
theorem C103_uncalculated (scale : ℝ) :
    weinbergThird (n := n) none scale = .err .runtime ∧ weinbergThirdVector (n := n) none scale = .err .runtime :=
  ⟨rfl, rfl⟩

/-- A scalar with a negative squared mass. -/
theorem negative_mass (hS : S.Correct) (hT : Lawful T) {x : ℝ}
    (hx : x ∈ (Spec.scalarMatrix T.scalar v).charpoly.roots) :
    ∃ i, (physicalCouplings S X T v).massHiggs i = cutMass x := by
  rw [← massHiggs_eq, ← (hS.real _ (hermitian_scalar _ hT.scalar v)).2, Multiset.mem_coe] at hx
  obtain ⟨i, hi, rfl⟩ := List.getElem_of_mem hx
  have hlen : (S.real (massHiggs T.scalar v)).length = n := by
    have h2 := (hS.real _ (hermitian_scalar _ hT.scalar v)).2
    rw [(hermitian_scalar _ hT.scalar v).roots_charpoly_eq_eigenvalues] at h2
    have := congrArg Multiset.card h2
    simpa using this
  refine ⟨⟨i, hlen ▸ hi⟩, ?_⟩
  dsimp only [physicalCouplings]
  congr 1
  simp [nth, List.getD, hi]

theorem cutMass_negative {x : ℝ} (h : x ≤ -(1 / 10 ^ 5)) : cutMass x = x := by
  rw [cutMass, if_neg]
  rw [abs_of_neg (lt_of_le_of_lt h (by norm_num)), not_lt]
  linarith

/-- **Negative squared masses.**  If the vacuum is a saddle point (a scalar has a squared mass of less than `-10⁻⁵`),
then there is no number in the result: the program throws, or every derivative is NaN. -/
theorem C103_negative (scale : ℝ) (hS : S.Correct) (hT : Lawful T)
    (h : ∃ x ∈ (Spec.scalarMatrix T.scalar v).charpoly.roots, x ≤ -(1 / 10 ^ 5)) :
    weinbergThird (some (physicalCouplings S X T v)) scale = .err .runtime ∨
      weinbergThird (some (physicalCouplings S X T v)) scale = .ok fun _ _ _ => .nan := by
  obtain ⟨x, hx, hle⟩ := h
  obtain ⟨i, hi⟩ := negative_mass (X := X) hS hT hx
  rw [cutMass_negative hle] at hi
  have hneg : (physicalCouplings S X T v).Negative :=
    Or.inl ⟨i, by rw [hi]; exact lt_of_le_of_lt hle (by norm_num)⟩
  unfold weinbergThird
  dsimp only
  simp only [if_pos hneg]
  split_ifs
  · exact Or.inl rfl
  · exact Or.inr rfl

/-- It throws if there is a massless scalar too, as the Goldstone bosons are. -/
theorem C103_negative_throws (scale : ℝ) (hS : S.Correct) (hT : Lawful T)
    (h : ∃ x ∈ (Spec.scalarMatrix T.scalar v).charpoly.roots, x ≤ -(1 / 10 ^ 5))
    (h0 : 0 ∈ (Spec.scalarMatrix T.scalar v).charpoly.roots) :
    weinbergThird (some (physicalCouplings S X T v)) scale = .err .runtime ∧
      weinbergThirdVector (some (physicalCouplings S X T v)) scale = .err .runtime := by
  obtain ⟨x, hx, hle⟩ := h
  obtain ⟨i, hi⟩ := negative_mass (X := X) hS hT hx
  obtain ⟨j, hj⟩ := negative_mass (X := X) hS hT h0
  rw [cutMass_negative hle] at hi
  have hlt : x < 0 := lt_of_le_of_lt hle (by norm_num)
  have ht : (physicalCouplings S X T v).Throws scale := by
    refine Or.inl ⟨i, j, j, ?_⟩
    rw [hi, hj]
    have c0 : cutMass 0 = 0 := by simp [cutMass]
    have hz : zeroed (1 / 10 ^ 8) x = x := by
      rw [zeroed, if_neg]
      rw [abs_of_neg hlt, not_lt]
      have : (1 : ℝ) / 10 ^ 8 ≤ 1 / 10 ^ 5 := by norm_num
      linarith
    have hz0 : zeroed (1 / 10 ^ 8) 0 = 0 := by simp [zeroed]
    have hm : merged (1 / 10 ^ 8) x 0 = x := by
      rw [merged, if_neg]
      rw [sub_zero, abs_of_neg hlt, not_lt]
      have : (1 : ℝ) / 10 ^ 8 ≤ 1 / 10 ^ 5 := by norm_num
      linarith
    have hm0 : merged (1 / 10 ^ 8) 0 0 = 0 := by simp [merged]
    rw [c0]
    unfold fbaseTri
    simp only [hz, hz0, hm, hm0]
    simp [triBranch, hlt.ne, ck, hlt]
  have e : weinbergThird (some (physicalCouplings S X T v)) scale = .err .runtime := by
    simp only [weinbergThird, if_pos ht]
  exact ⟨e, by simp only [weinbergThirdVector, e]⟩

end Verif.Weinberg
