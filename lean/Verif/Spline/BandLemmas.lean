import Mathlib.Algebra.BigOperators.Group.Finset.Basic
import Mathlib.Algebra.BigOperators.Ring.Finset
import Mathlib.Algebra.BigOperators.Intervals
import Mathlib.Tactic.Ring
import Mathlib.Tactic.FieldSimp
import Verif.Spline.Band

/-!
# Lemmas about the band matrix solver
-/

set_option linter.unusedSectionVars false
set_option linter.unusedSimpArgs false

namespace Verif.Spline

variable {K : Type} [Field K]

theorem mem_fromTo {lo hi j : Nat} : j ∈ fromTo lo hi ↔ lo ≤ j ∧ j ≤ hi := by
  simp only [fromTo, List.mem_range']
  constructor
  · rintro ⟨i, hi', rfl⟩; omega
  · intro h; exact ⟨j - lo, by omega, by omega⟩

theorem nodup_fromTo (lo hi : Nat) : (fromTo lo hi).Nodup := List.nodup_range'

/-- A loop that writes a row entry by entry, each from entries the loop does not change. -/
theorem fold_row (i : Nat) (F : (Nat → Nat → K) → Nat → K)
    (hF : ∀ A B : Nat → Nat → K, ∀ j, (∀ i', i' ≠ i → ∀ j', A i' j' = B i' j') → A i j = B i j →
      F A j = F B j) (js : List Nat) (hjs : js.Nodup) (A : Nat → Nat → K) :
    js.foldl (fun a j => setAt a i j (F a j)) A
      = fun i' j' => if i' = i ∧ j' ∈ js then F A j' else A i' j' := by
  induction js generalizing A with
  | nil => simp
  | cons j js ih =>
    rw [List.nodup_cons] at hjs
    rw [List.foldl_cons, ih hjs.2]
    funext i' j'
    by_cases h : i' = i
    · subst h
      by_cases h2 : j' ∈ js
      · have hne : j' ≠ j := fun e => hjs.1 (e ▸ h2)
        simp only [h2, and_true, if_true, List.mem_cons, or_true]
        apply hF
        · intro i2 hi2 j2; simp [setAt, hi2]
        · simp [setAt, hne]
      · by_cases h3 : j' = j
        · subst h3; simp [setAt, h2]
        · simp [setAt, h2, h3]
    · simp [setAt, h]

/-- A loop over rows, each changed in terms of itself and the row `k` which the loop leaves. -/
theorem fold_rows (k : Nat) (G : (Nat → Nat → K) → Nat → Nat → Nat → K)
    (h1 : ∀ A i i' j', i' ≠ i → G A i i' j' = A i' j')
    (h2 : ∀ A B : Nat → Nat → K, ∀ i j', (∀ j, A i j = B i j) → (∀ j, A k j = B k j) →
      G A i i j' = G B i i j')
    (is : List Nat) (his : is.Nodup) (hk : k ∉ is) (A : Nat → Nat → K) :
    is.foldl G A = fun i' j' => if i' ∈ is then G A i' i' j' else A i' j' := by
  induction is generalizing A with
  | nil => simp
  | cons i is ih =>
    rw [List.nodup_cons] at his
    rw [List.mem_cons, not_or] at hk
    rw [List.foldl_cons, ih his.2 hk.2]
    funext i' j'
    by_cases h : i' ∈ is
    · have hne : i' ≠ i := fun e => his.1 (e ▸ h)
      simp only [h, if_true, List.mem_cons, or_true]
      exact h2 _ _ _ _ (fun j => h1 _ _ _ _ hne) (fun j => h1 _ _ _ _ hk.1)
    · by_cases h3 : i' = i
      · subst h3; simp [h]
      · simp [h, h3, h1 _ _ _ _ h3]

/-- A loop that writes a vector, each entry from entries that no later pass changes. -/
theorem fold_vec (H : (Nat → K) → Nat → K) (reads : Nat → Nat → Prop)
    (hH : ∀ x y i, (∀ j, reads i j → x j = y j) → H x i = H y i)
    (is : List Nat) (hn : is.Nodup) (hp : is.Pairwise fun i i' => ¬ reads i i')
    (hr : ∀ i, ¬ reads i i) (x : Nat → K) :
    (∀ i, i ∉ is → is.foldl (fun x i => setVec x i (H x i)) x i = x i) ∧
    ∀ i ∈ is, is.foldl (fun x i => setVec x i (H x i)) x i
      = H (is.foldl (fun x i => setVec x i (H x i)) x) i := by
  induction is generalizing x with
  | nil => simp
  | cons k is ih =>
    rw [List.nodup_cons] at hn
    rw [List.pairwise_cons] at hp
    obtain ⟨ih1, ih2⟩ := ih hn.2 hp.2 (setVec x k (H x k))
    constructor
    · intro i hi
      rw [List.mem_cons, not_or] at hi
      rw [List.foldl_cons, ih1 i hi.2]
      simp [setVec, hi.1]
    · intro i hi
      rw [List.foldl_cons]
      rcases List.mem_cons.1 hi with rfl | hi
      · rw [ih1 i hn.1]
        simp only [setVec, if_true]
        apply hH
        intro j hj
        have hji : j ≠ i := fun e => hr i (e ▸ hj)
        have hjs : j ∉ is := fun hm => hp.1 j hm hj
        have := ih1 j hjs
        simp only [setVec] at this
        rw [this]
        simp [hji]
      · exact ih2 i hi

/-- What the preconditioning of row `i` does. -/
theorem normRow_eq (dim nu nl : Nat) (a : Nat → Nat → K) (i i' j' : Nat) :
    normRow dim nu nl a i i' j' =
      if i' = i then (if j' = i then 1
        else if i - nl ≤ j' ∧ j' ≤ min (dim - 1) (i + nu) then a i j' * (1 / a i i) else a i j')
      else a i' j' := by
  simp only [normRow]
  rw [fold_row i (fun a' j => a' i j * (1 / a i i)) (by intro A B j _ h; simp [h])
    _ (nodup_fromTo _ _)]
  simp only [setAt, mem_fromTo]
  split_ifs <;> simp_all

theorem normRows_eq (dim nu nl : Nat) (a : Nat → Nat → K) (n i' j' : Nat) :
    (List.range n).foldl (normRow dim nu nl) a i' j' =
      if i' < n then normRow dim nu nl a i' i' j' else a i' j' := by
  rw [fold_rows n (normRow dim nu nl)]
  · simp
  · intro A i i' j' h; simp [normRow_eq, h]
  · intro A B i j' h _; simp [normRow_eq, h]
  · exact List.nodup_range
  · simp

/-- What the elimination of row `i` does. -/
theorem elimRow_eq (dim nu k : Nat) (a : Nat → Nat → K) (i i' j' : Nat) (hik : i ≠ k) :
    elimRow dim nu k a i i' j' =
      if i' = i then (if j' = k then a i k / a k k
        else if k + 1 ≤ j' ∧ j' ≤ min (dim - 1) (k + nu) then a i j' - a i k / a k k * a k j'
        else a i j')
      else a i' j' := by
  simp only [elimRow]
  rw [fold_row i (fun a' j => a' i j + -a i k / a k k * a' k j)
    (by intro A B j h h'; rw [h', h k (Ne.symm hik)]) _ (nodup_fromTo _ _)]
  have hki : k ≠ i := Ne.symm hik
  simp only [setAt, mem_fromTo]
  by_cases h1 : i' = i
  · subst h1
    by_cases h2 : j' = k
    · subst h2
      simp [neg_div]
    · by_cases h3 : k + 1 ≤ j' ∧ j' ≤ min (dim - 1) (k + nu)
      · simp only [h2, h3, and_self, if_true, if_false, and_false, hki, false_and]
        ring
      · simp only [h2, h3, and_false, if_false, true_and, if_true]
  · simp [h1]

theorem elim_eq (dim nu nl : Nat) (a : Nat → Nat → K) (k i' j' : Nat) :
    elim dim nu nl a k i' j' =
      if k + 1 ≤ i' ∧ i' ≤ min (dim - 1) (k + nl) then elimRow dim nu k a i' i' j'
      else a i' j' := by
  rw [elim, show (elimRow dim nu k : (Nat → Nat → K) → Nat → Nat → Nat → K)
    = elimRow dim nu k from rfl]
  have hfold : (fromTo (k + 1) (min (dim - 1) (k + nl))).foldl (elimRow dim nu k) a
      = (fromTo (k + 1) (min (dim - 1) (k + nl))).foldl
        (fun a i => if i = k then a else elimRow dim nu k a i) a := by
    apply List.foldl_ext
    intro b i hi
    rw [mem_fromTo] at hi
    simp [show i ≠ k by omega]
  rw [hfold, fold_rows k]
  · simp only [mem_fromTo]
    split_ifs with h1 h2
    · omega
    · rfl
    · rfl
  · intro A i i' j' h
    split_ifs with hk
    · rfl
    · simp [elimRow_eq _ _ _ _ _ _ _ hk, h]
  · intro A B i j' h h'
    split_ifs with hk
    · exact h j'
    · simp [elimRow_eq _ _ _ _ _ _ _ hk, h, h']
  · exact nodup_fromTo _ _
  · rw [mem_fromTo]; omega

/-- The matrix before pass `k` of the decomposition. -/
def stage (A : Band K) (k : Nat) : Nat → Nat → K :=
  (List.range k).foldl (elim A.dim A.nu A.nl)
    ((List.range A.dim).foldl (normRow A.dim A.nu A.nl) A.a)

theorem stage_succ (A : Band K) (k : Nat) :
    stage A (k + 1) = elim A.dim A.nu A.nl (stage A k) k := by
  rw [stage, List.range_succ, List.foldl_append]; rfl

/-- Rows up to `k` and columns below `k` no longer change. -/
theorem stage_frozen_step (A : Band K) (k i j : Nat) (h : i ≤ k ∨ j < k) :
    stage A (k + 1) i j = stage A k i j := by
  rw [stage_succ, elim_eq]
  split_ifs with h1
  · rw [elimRow_eq _ _ _ _ _ _ _ (by omega)]
    simp only [if_true]
    rw [if_neg (by omega), if_neg (by omega)]
  · rfl

theorem stage_frozen (A : Band K) (k m i j : Nat) (hm : k ≤ m) (h : i ≤ k ∨ j < k) :
    stage A m i j = stage A k i j := by
  induction m, hm using Nat.le_induction with
  | base => rfl
  | succ m hm ih => rw [stage_frozen_step _ _ _ _ (by omega), ih]

/-- Entries outside the bands stay zero. -/
theorem stage_band (A : Band K) (hA : ∀ i j, (j + A.nl < i ∨ i + A.nu < j) → A.a i j = 0)
    (k i j : Nat) (h : j + A.nl < i ∨ i + A.nu < j) : stage A k i j = 0 := by
  induction k generalizing i j with
  | zero =>
    simp only [stage, List.range_zero, List.foldl_nil]
    rw [normRows_eq]
    split_ifs with h1
    · rw [normRow_eq]
      simp only [if_true]
      rw [if_neg (by omega), hA i j h]; simp
    · exact hA i j h
  | succ k ih =>
    rw [stage_succ, elim_eq]
    split_ifs with h1
    · rw [elimRow_eq _ _ _ _ _ _ _ (by omega)]
      simp only [if_true]
      split_ifs with h2 h3
      · omega
      · rw [ih i j h]
        have : stage A k i k = 0 ∨ stage A k k j = 0 := by
          rcases h with h | h
          · omega
          · exact Or.inr (ih k j (Or.inr (by omega)))
        rcases this with h | h <;> simp [h]
      · exact ih i j h
    · exact ih i j h

/-- The step of the elimination, with bands ignored. -/
theorem stage_elim (A : Band K) (hA : ∀ i j, (j + A.nl < i ∨ i + A.nu < j) → A.a i j = 0)
    (k i j : Nat) (hk : k < i) (hi : i < A.dim) (hj : k < j) (hjd : j < A.dim) :
    stage A (k + 1) i j = stage A k i j - stage A k i k / stage A k k k * stage A k k j := by
  rw [stage_succ, elim_eq]
  split_ifs with h1
  · rw [elimRow_eq _ _ _ _ _ _ _ (by omega)]
    simp only [if_true]
    rw [if_neg (by omega)]
    split_ifs with h2
    · rfl
    · rw [stage_band A hA k k j (by omega)]; simp
  · rw [stage_band A hA k i k (by omega)]; simp

/-- The multiplier stored in the lower part. -/
theorem stage_mult (A : Band K) (hA : ∀ i j, (j + A.nl < i ∨ i + A.nu < j) → A.a i j = 0)
    (k i : Nat) (hk : k < i) (hi : i < A.dim) :
    stage A (k + 1) i k = stage A k i k / stage A k k k := by
  rw [stage_succ, elim_eq]
  split_ifs with h1
  · rw [elimRow_eq _ _ _ _ _ _ _ (by omega)]
    simp
  · rw [stage_band A hA k i k (by omega)]; simp

theorem sum_fromTo_eq (f : Nat → K) (lo hi : Nat) :
    ((fromTo lo hi).map f).sum = ∑ j ∈ Finset.Ico lo (hi + 1), f j := by
  rw [Finset.sum_eq_multiset_sum]
  simp only [Finset.Ico, fromTo, Finset.sum_map_val]
  rfl

theorem luDecompose_a (A : Band K) : (luDecompose A).a = stage A A.dim := rfl

/-- The equation `l_solve` solves. -/
theorem lSolve_eq (A : Band K) (hA : ∀ i j, (j + A.nl < i ∨ i + A.nu < j) → A.a i j = 0)
    (b : Nat → K) (i : Nat) (hi : i < A.dim) :
    lSolve (luDecompose A) b i = b i * (1 / A.a i i)
      - ∑ j ∈ Finset.Ico 0 i, stage A A.dim i j * lSolve (luDecompose A) b j := by
  have h := (fold_vec (fun (x : Nat → K) i => b i * (luDecompose A).saved i
    - ((List.range' (i - (luDecompose A).nl) (i - (i - (luDecompose A).nl))).map
      fun j : Nat => (luDecompose A).a i j * x j).sum) (fun i j => j < i)
    (by
      intro x y i hxy
      have : ((List.range' (i - (luDecompose A).nl) (i - (i - (luDecompose A).nl))).map
          fun j : Nat => (luDecompose A).a i j * x j)
          = ((List.range' (i - (luDecompose A).nl) (i - (i - (luDecompose A).nl))).map
          fun j : Nat => (luDecompose A).a i j * y j) := by
        apply List.map_congr_left
        intro j hj
        rw [List.mem_range'] at hj
        obtain ⟨l, hl, rfl⟩ := hj
        rw [hxy _ (by omega)]
      rw [this])
    (List.range A.dim) List.nodup_range
    (List.pairwise_lt_range.imp (by intro a b h; omega)) (by intro i; omega) (fun _ => 0)).2 i
    (by simpa using hi)
  refine Eq.trans h ?_
  change b i * (1 / A.a i i) - _ = _
  congr 1
  have hr : List.range' (i - A.nl) (i - (i - A.nl)) = List.range' (i - A.nl) (i - (i - A.nl)) := rfl
  have hs : ∀ f : Nat → K, ((List.range' (i - A.nl) (i - (i - A.nl))).map f).sum
      = ∑ j ∈ Finset.Ico (i - A.nl) i, f j := by
    intro f
    rw [Finset.sum_eq_multiset_sum]
    rfl
  refine Eq.trans (hs _) ?_
  apply Finset.sum_subset
  · intro j; simp only [Finset.mem_Ico]; omega
  · intro j hj hj'
    simp only [Finset.mem_Ico] at hj hj'
    rw [luDecompose_a, stage_band A hA _ i j (by omega), zero_mul]

/-- The equation `r_solve` solves. -/
theorem rSolve_eq (A : Band K) (hA : ∀ i j, (j + A.nl < i ∨ i + A.nu < j) → A.a i j = 0)
    (y : Nat → K) (i : Nat) (hi : i < A.dim) :
    rSolve (luDecompose A) y i
      = (y i - ∑ j ∈ Finset.Ico (i + 1) A.dim, stage A A.dim i j * rSolve (luDecompose A) y j)
        / stage A A.dim i i := by
  have h := (fold_vec (fun (x : Nat → K) i => (y i
    - ((fromTo (i + 1) (min ((luDecompose A).dim - 1) (i + (luDecompose A).nu))).map
      fun j : Nat => (luDecompose A).a i j * x j).sum) / (luDecompose A).a i i) (fun i j => i < j)
    (by
      intro x y' i hxy
      have : ((fromTo (i + 1) (min ((luDecompose A).dim - 1) (i + (luDecompose A).nu))).map
          fun j : Nat => (luDecompose A).a i j * x j)
          = ((fromTo (i + 1) (min ((luDecompose A).dim - 1) (i + (luDecompose A).nu))).map
          fun j : Nat => (luDecompose A).a i j * y' j) := by
        apply List.map_congr_left
        intro j hj
        rw [mem_fromTo] at hj
        rw [hxy _ (by omega)]
      rw [this])
    (List.range A.dim).reverse (List.nodup_reverse.2 List.nodup_range)
    (by
      rw [List.pairwise_reverse]
      exact List.pairwise_lt_range.imp (by intro a b h; omega))
    (by intro i; omega) (fun _ => 0)).2 i (by simpa using hi)
  refine Eq.trans h ?_
  rw [luDecompose_a, sum_fromTo_eq]
  congr 2
  change ∑ j ∈ Finset.Ico (i + 1) (min (A.dim - 1) (i + A.nu) + 1), _ = _
  apply Finset.sum_subset
  · intro j; simp only [Finset.mem_Ico]; omega
  · intro j hj hj'
    simp only [Finset.mem_Ico] at hj hj'
    rw [stage_band A hA _ i j (by omega), zero_mul]

/-- If no pivot vanishes, `lu_solve` solves the system. -/
theorem luSolve_solves (A : Band K) (hA : ∀ i j, (j + A.nl < i ∨ i + A.nu < j) → A.a i j = 0)
    (hd : ∀ i < A.dim, A.a i i ≠ 0) (hp : ∀ k < A.dim, stage A k k k ≠ 0) (b : Nat → K)
    (i : Nat) (hi : i < A.dim) :
    ∑ j ∈ Finset.range A.dim, A.a i j * luSolve A b j = b i := by
  set y := lSolve (luDecompose A) b with hy
  set x := luSolve A b with hx
  have hxr : ∀ k < A.dim, stage A k k k * x k + ∑ j ∈ Finset.Ico (k + 1) A.dim,
      stage A k k j * x j = y k := by
    intro k hk
    have h := rSolve_eq A hA y k hk
    rw [show rSolve (luDecompose A) y = x from rfl] at h
    have hfr : ∀ j, stage A A.dim k j = stage A k k j := fun j =>
      stage_frozen A k A.dim k j (by omega) (Or.inl le_rfl)
    simp only [hfr] at h
    rw [h]
    field_simp [hp k hk]
    ring
  have main : ∀ d k i, k + d = i → i < A.dim →
      ∑ j ∈ Finset.Ico k A.dim, stage A k i j * x j
        = y i + ∑ m ∈ Finset.Ico k i, stage A A.dim i m * y m := by
    intro d
    induction d with
    | zero =>
      intro k i hki hi
      obtain rfl : k = i := by omega
      rw [Finset.Ico_self, Finset.sum_empty, add_zero, ← hxr k hi,
        Finset.sum_eq_sum_Ico_succ_bot hi]
    | succ d ih =>
      intro k i hki hi
      have hk : k < i := by omega
      have hkd : k < A.dim := by omega
      have h1 := ih (k + 1) i (by omega) hi
      have hm : stage A A.dim i k = stage A k i k / stage A k k k := by
        rw [stage_frozen A (k + 1) A.dim i k (by omega) (Or.inr (by omega)),
          stage_mult A hA k i hk hi]
      have h2 : ∑ j ∈ Finset.Ico (k + 1) A.dim, stage A k i j * x j
          = ∑ j ∈ Finset.Ico (k + 1) A.dim, stage A (k + 1) i j * x j
            + stage A k i k / stage A k k k
              * ∑ j ∈ Finset.Ico (k + 1) A.dim, stage A k k j * x j := by
        rw [Finset.mul_sum, ← Finset.sum_add_distrib]
        apply Finset.sum_congr rfl
        intro j hj
        rw [Finset.mem_Ico] at hj
        rw [stage_elim A hA k i j hk hi (by omega) hj.2]
        ring
      rw [Finset.sum_eq_sum_Ico_succ_bot hkd, h2, h1, Finset.sum_eq_sum_Ico_succ_bot hk, hm]
      have h3 := hxr k hkd
      have h4 := hp k hkd
      have h5 : ∑ j ∈ Finset.Ico (k + 1) A.dim, stage A k k j * x j
          = y k - stage A k k k * x k := by rw [← h3]; ring
      rw [h5]
      field_simp
      ring
  have h0 := main i 0 i (by omega) hi
  have hl := lSolve_eq A hA b i hi
  rw [← hy] at hl
  have hn : ∀ j < A.dim, A.a i j = A.a i i * stage A 0 i j := by
    intro j hj
    simp only [stage, List.range_zero, List.foldl_nil]
    rw [normRows_eq, if_pos hi, normRow_eq, if_pos rfl]
    have := hd i hi
    split_ifs with h1 h2
    · rw [h1, mul_one]
    · field_simp
    · rw [hA i j (by omega), mul_zero]
  have hfin : ∑ j ∈ Finset.range A.dim, A.a i j * x j
      = A.a i i * ∑ j ∈ Finset.Ico 0 A.dim, stage A 0 i j * x j := by
    rw [Finset.mul_sum, Finset.range_eq_Ico]
    apply Finset.sum_congr rfl
    intro j hj
    rw [Finset.mem_Ico] at hj
    rw [hn j hj.2]
    ring
  rw [hfin, h0, hl]
  have := hd i hi
  field_simp
  ring

end Verif.Spline
