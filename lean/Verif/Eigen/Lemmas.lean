import Verif.Eigen.Perturb
import Mathlib.Data.Fintype.Card

/-!
# The loop over the eigenvalues
-/

namespace Verif.Eigen

open Matrix Module Spec

variable {n : ℕ} {solve : SelfAdjoint} {M V D : Matrix (Fin n) (Fin n) ℂ} {E : Fin n → ℝ}

theorem cut_of {x : ℝ} (h : x = 0 ∨ 1 / 10 ^ 6 ≤ |x|) : cutValue x = x := by
  unfold cutValue evThres
  rcases h with rfl | h
  · simp
  · rw [if_neg (not_lt.2 h)]

theorem mapping_iff (h : ∀ i j, E i = E j ∨ 1 / 10 ^ 6 < |E i - E j|) (i j : Fin n) :
    mapping E i j = true ↔ E i = E j := by
  unfold mapping evThres
  have key : ∀ i j, (!decide ((1 / 10 ^ 6 : ℝ) < |E i - E j|)) = true ↔ E i = E j := fun i j => by
    rcases h i j with h | h
    · simp [h]
    · have : E i ≠ E j := fun h' => by rw [h', sub_self, abs_zero] at h; norm_num at h
      simp only [decide_eq_true h, Bool.not_true, this, Bool.false_eq_true]
  split_ifs
  · exact key i j
  · rw [key j i, eq_comm]

theorem mem_group (h : ∀ i j, E i = E j ∨ 1 / 10 ^ 6 < |E i - E j|) (p i : Fin n) :
    i ∈ group E p ↔ p ≤ i ∧ E p = E i := by
  simp [group, mapping_iff h, List.mem_finRange]

theorem group_nodup (p : Fin n) : (group E p).Nodup := (List.nodup_finRange n).filter _

/-- The steps for other eigenvalues leave a position alone. -/
theorem step_other (h : ∀ i j, E i = E j ∨ 1 / 10 ^ 6 < |E i - E j|) (s : State n) (p i : Fin n) (hi : E p ≠ E i) :
    (step solve E V D s p).already i = s.already i ∧ (step solve E V D s p).deriv i = s.deriv i := by
  have h1 : i ≠ p := fun e => hi (by rw [e])
  have h2 : i ∉ group E p := fun e => hi ((mem_group h p i).1 e).2
  unfold step
  split_ifs
  · exact ⟨rfl, rfl⟩
  · simp [h1]
  · simp [h2]

theorem foldl_other (h : ∀ i j, E i = E j ∨ 1 / 10 ^ 6 < |E i - E j|) (i : Fin n) :
    ∀ (L : List (Fin n)) (s : State n), (∀ q ∈ L, E q ≠ E i) →
      (L.foldl (step solve E V D) s).already i = s.already i ∧ (L.foldl (step solve E V D) s).deriv i = s.deriv i
  | [], _, _ => ⟨rfl, rfl⟩
  | q :: L, s, hL => by
    have h1 := step_other (solve := solve) (V := V) (D := D) h s q i (hL q (by simp))
    have h2 := foldl_other h i L (step solve E V D s q) fun r hr => hL r (by simp [hr])
    exact ⟨h2.1.trans h1.1, h2.2.trans h1.2⟩

/-- Once a class is calculated nothing changes it. -/
theorem foldl_done (h : ∀ i j, E i = E j ∨ 1 / 10 ^ 6 < |E i - E j|) (l : ℝ) :
    ∀ (L : List (Fin n)) (s : State n), (∀ i, E i = l → s.already i = true) →
      ∀ i, E i = l → (L.foldl (step solve E V D) s).deriv i = s.deriv i
  | [], _, _, _, _ => rfl
  | q :: L, s, hs, i, hi => by
    by_cases hq : E q = l
    · have : step solve E V D s q = s := by unfold step; rw [if_pos (hs q hq)]
      rw [List.foldl_cons, this]
      exact foldl_done h l L s hs i hi
    · have ho := fun i (hi : E i = l) =>
        step_other (solve := solve) (V := V) (D := D) h s q i (fun e => hq (e.trans hi))
      rw [List.foldl_cons, foldl_done h l L _ (fun i hi => (ho i hi).1.trans (hs i hi)) i hi]
      exact (ho i hi).2

/-- The derivatives of one eigenvalue. -/
theorem class_data (hs : IsSolver solve) (hD : D.IsHermitian)
    (h : ∀ i j, E i = E j ∨ 1 / 10 ^ 6 < |E i - E j|) (l : ℝ) :
    ∃ (k : ℕ) (e : Fin k → Fin n) (U : Matrix (Fin k) (Fin k) ℂ) (nu : Fin k → ℝ),
      Function.Injective e ∧ (∀ i, E i = l ↔ ∃ a, e a = i) ∧ Uᴴ * U = 1 ∧
      (cols V e)ᴴ * D * cols V e * U = U * diagonal (fun a => (nu a : ℂ)) ∧
      ∀ a, derivatives solve E V D (e a) = nu a := by
  by_cases hl : ∃ i, E i = l
  swap
  · refine ⟨0, Fin.elim0, 1, Fin.elim0, fun a => a.elim0, fun i => ⟨fun hi => (hl ⟨i, hi⟩).elim, ?_⟩, ?_, ?_,
      fun a => a.elim0⟩
    · rintro ⟨a, _⟩; exact a.elim0
    · ext a; exact a.elim0
    · ext a; exact a.elim0
  -- the first position of the class
  obtain ⟨p, hp, hmin⟩ : ∃ p, E p = l ∧ ∀ i, E i = l → p ≤ i := by
    have hne : (Finset.univ.filter fun i => E i = l).Nonempty := by
      obtain ⟨i, hi⟩ := hl; exact ⟨i, by simp [hi]⟩
    refine ⟨_, (Finset.mem_filter.1 (Finset.min'_mem _ hne)).2, fun i hi => Finset.min'_le _ _ (by simp [hi])⟩
  obtain ⟨L1, L2, hL⟩ := List.append_of_mem (List.mem_finRange p)
  have hL1 : ∀ q ∈ L1, E q ≠ l := by
    intro q hq he
    have hlt : q < p := by
      have := List.pairwise_lt_finRange n
      rw [hL, List.pairwise_append] at this
      exact this.2.2 q hq p (by simp)
    exact absurd (hmin q he) (not_le.2 hlt)
  obtain ⟨s, hsdef⟩ : ∃ s, s = L1.foldl (step solve E V D) ⟨fun _ => false, fun _ => 0⟩ := ⟨_, rfl⟩
  have hsp : s.already p = false := by
    rw [hsdef, (foldl_other h p L1 _ fun q hq => by rw [hp]; exact hL1 q hq).1]
  have hderiv : ∀ i, E i = l → (∀ i, E i = l → (step solve E V D s p).already i = true) →
      derivatives solve E V D i = (step solve E V D s p).deriv i := by
    intro i hi hall
    unfold derivatives
    rw [hL, List.foldl_append, ← hsdef, List.foldl_cons]
    exact foldl_done h l L2 _ hall i hi
  by_cases hr : numOfReps E p = 0
  · -- a single eigenvalue
    have honly : ∀ i, E i = l → i = p := by
      intro i hi
      rcases (hmin i hi).lt_or_eq with hlt | he
      · exfalso
        rw [numOfReps, List.length_eq_zero_iff, List.filter_eq_nil_iff] at hr
        apply hr i (List.mem_finRange i)
        simp [hlt, mapping_iff h, hp, hi]
      · exact he.symm
    have hstep : step solve E V D s p =
        ⟨fun i => if i = p then true else s.already i,
          fun i => if i = p then star (fun k => V k p) ⬝ᵥ D *ᵥ fun k => V k p else s.deriv i⟩ := by
      unfold step; rw [if_neg (by simp [hsp]), if_pos hr]
    have hA : ((cols V fun _ : Fin 1 => p)ᴴ * D * cols V fun _ : Fin 1 => p) 0 0 =
        star (fun k => V k p) ⬝ᵥ D *ᵥ fun k => V k p := by
      rw [Matrix.mul_assoc]; rfl
    have hAh : ((cols V fun _ : Fin 1 => p)ᴴ * D * cols V fun _ : Fin 1 => p).IsHermitian :=
      isHermitian_conjTranspose_mul_mul _ hD
    refine ⟨1, fun _ => p, 1, fun _ => (star (fun k => V k p) ⬝ᵥ D *ᵥ fun k => V k p).re,
      Function.injective_of_subsingleton _, fun i => ⟨fun hi => ⟨0, (honly i hi).symm⟩, ?_⟩, by simp, ?_, ?_⟩
    · rintro ⟨_, rfl⟩; exact hp
    · rw [Matrix.mul_one, Matrix.one_mul]
      ext a b
      have ha : a = 0 := Subsingleton.elim _ _
      have hb : b = 0 := Subsingleton.elim _ _
      subst ha hb
      rw [diagonal_apply_eq, ← hA]
      have := hAh.apply 0 0
      exact (Complex.conj_eq_iff_re.1 this).symm
    · intro _
      rw [hderiv p hp fun i hi => by rw [hstep]; simp [honly i hi], hstep]
      simp only [if_true]
      rw [← hA]
      exact (Complex.conj_eq_iff_re.1 (hAh.apply 0 0)).symm
  · have hg : ∀ i, i ∈ group E p ↔ E i = l := fun i => by
      rw [mem_group h, hp]
      exact ⟨fun h => h.2.symm, fun h => ⟨hmin i h, h.symm⟩⟩
    obtain ⟨g, hgd⟩ : ∃ g, g = group E p := ⟨_, rfl⟩
    have hnd : g.Nodup := hgd ▸ group_nodup p
    rw [← hgd] at hg
    have hstep : step solve E V D s p =
        ⟨fun i => if i ∈ g then true else s.already i,
          fun i => if h : i ∈ g then ((solve g.length (mxWork V D g)).values
            ⟨g.idxOf i, List.idxOf_lt_length_of_mem h⟩ : ℂ) else s.deriv i⟩ := by
      unfold step; rw [if_neg (by simp [hsp]), if_neg hr, hgd]
    have hAh : (mxWork V D g).IsHermitian := isHermitian_conjTranspose_mul_mul _ hD
    obtain ⟨hU, hUA⟩ := hs g.length _ hAh
    refine ⟨g.length, g.get, (solve g.length (mxWork V D g)).vectors, (solve g.length (mxWork V D g)).values,
      List.nodup_iff_injective_get.1 hnd, fun i => ?_, hU, hUA, fun a => ?_⟩
    · rw [← hg i, List.mem_iff_get]
    · have hm : g.get a ∈ g := List.get_mem g a
      rw [hderiv _ ((hg _).1 hm) fun i hi => by rw [hstep]; simp [(hg i).2 hi], hstep]
      simp only [hm, dif_pos]
      congr 2
      apply Fin.ext
      exact hnd.idxOf_getElem a.1 a.2

/-- The columns of the eigenvectors. -/
theorem isEigenvalue_of (hV : Vᴴ * V = 1) (hM : M * V = V * diagonal fun i => (E i : ℂ)) (i : Fin n) :
    IsEigenvalue M (E i) := by
  refine ⟨fun k => V k i, fun h0 => ?_, ?_⟩
  · have := congrFun (congrFun hV i) i
    rw [Matrix.mul_apply, one_apply_eq] at this
    simp [fun j => congrFun h0 j] at this
  · funext k
    have := congrFun (congrFun hM k) i
    rw [mul_diagonal] at this
    rw [show (M *ᵥ fun k => V k i) k = (M * V) k i from rfl, this]
    simp [mul_comm]

open Classical in
/-- The derivatives are counted by the vectors of first order. -/
theorem card_derivatives (hs : IsSolver solve) (hD : D.IsHermitian)
    (h : ∀ i j, E i = E j ∨ 1 / 10 ^ 6 < |E i - E j|) (hV : Vᴴ * V = 1)
    (hM : M * V = V * diagonal fun i => (E i : ℂ)) (l m : ℝ) :
    Fintype.card {i // E i = l ∧ derivatives solve E V D i = m} = finrank ℂ (firstOrder M D l m) := by
  obtain ⟨k, e, U, nu, he, hr, hU, hA, hd⟩ := class_data (V := V) hs hD h l
  rw [finrank_firstOrder hV hM he hr hU hA m, finrank_support]
  symm
  refine Fintype.card_of_bijective (f := fun a => ⟨e a.1, (hr _).2 ⟨a.1, rfl⟩, by rw [hd, a.2]⟩) ⟨?_, ?_⟩
  · intro a b hab
    exact Subtype.ext (he (congrArg Subtype.val hab))
  · rintro ⟨i, hi, hi'⟩
    obtain ⟨a, rfl⟩ := (hr i).1 hi
    exact ⟨⟨a, by rw [hd] at hi'; exact_mod_cast hi'⟩, rfl⟩

theorem derivatives_real (hs : IsSolver solve) (hD : D.IsHermitian)
    (h : ∀ i j, E i = E j ∨ 1 / 10 ^ 6 < |E i - E j|) (i : Fin n) :
    ∃ x : ℝ, derivatives solve E V D i = x := by
  obtain ⟨k, e, U, nu, _, hr, _, _, hd⟩ := class_data (V := V) hs hD h (E i)
  obtain ⟨a, ha⟩ := (hr i).1 rfl
  exact ⟨nu a, by rw [← ha, hd]⟩

end Verif.Eigen
