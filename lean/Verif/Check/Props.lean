import Verif.Check.Lemmas

/-!
# The checks of the tensors accept exactly the symmetric tensors
-/

set_option linter.unusedSectionVars false
set_option linter.unusedSimpArgs false

namespace Verif.Check

open Outcome Spec

variable {E : Type} [Comparable E] [HasNaN E] [LawfulNe E]

theorem scalarSecond_table {n : Nat} (t : Fin n → Fin n → E) : scalarSecond (table2 t) =
    ok (verdict ((∀ i j, HasNaN.number (t i j)) ∧ ∀ i j, t i j = t j i)) := by
  rw [scalarSecond]
  by_cases hn : n = 0
  · subst hn
    rw [verdict_true ⟨fun i => i.elim0, fun i => i.elim0⟩]
    rfl
  have hpos : 0 < n := Nat.pos_of_ne_zero hn
  have hempty : (table2 t).isEmpty = false := by
    rw [List.isEmpty_eq_false_iff, ← List.length_pos_iff, length_table2]; exact hpos
  have hall : ((table2 t).any fun rows => decide (rows.length ≠ n)) = false := by
    rw [List.any_eq_false]
    intro r hr
    obtain ⟨i, rfl⟩ := mem_table2 t hr
    simp
  have h0 : at' (table2 t) 0 = ok (List.ofFn (t ⟨0, hpos⟩)) := at'_ofFn _ ⟨0, hpos⟩
  simp only [hempty, h0, bind_ok, length_table2, List.length_ofFn, ne_eq, not_true_eq_false,
    if_false, Bool.false_eq_true]
  simp only [ne_eq] at hall
  simp only [hall, Bool.false_eq_true, if_false]
  rw [scan_range (n := n) _ fun i => ∀ j : Fin n, i ≤ j → t i j = t j i ∧ HasNaN.number (t i j)]
  · refine congrArg ok (verdict_congr ⟨fun H => ⟨fun i j => ?_, fun i j => ?_⟩, fun H i j _ =>
      ⟨H.2 i j, H.1 i j⟩⟩)
    · rcases Nat.le_total i j with h | h
      · exact (H i j h).2
      · have := H j i h
        rw [← this.1]; exact this.2
    · rcases Nat.le_total i j with h | h
      · exact (H i j h).1
      · exact (H j i h).1.symm
  · intro i
    rw [scan_eq (List.range' i (n - i)) _ fun j => ∀ hj : j < n, t i ⟨j, hj⟩ = t ⟨j, hj⟩ i ∧
      HasNaN.number (t i ⟨j, hj⟩)]
    · refine congrArg ok (verdict_congr ⟨fun H j hij => H j ?_ j.2, fun H j hj hjn =>
        H ⟨j, hjn⟩ (List.mem_range'_1.1 hj).1⟩)
      have h1 := j.2
      have h2 : (i : Nat) ≤ j := hij
      rw [List.mem_range'_1]; omega
    · intro j hj
      have hj := List.mem_range'_1.1 hj
      have hi := i.2
      have hjn : j < n := by omega
      rw [show get2 (table2 t) (i : Nat) j = _ from get2_table t i ⟨j, hjn⟩,
        show get2 (table2 t) j (i : Nat) = _ from get2_table t ⟨j, hjn⟩ i, bind_ok, bind_ok,
        differs_eq]
      exact congrArg ok (verdict_congr ⟨fun H _ => H, fun H => H hjn⟩)

/-- The check of the quadratic couplings of the scalars, and nothing is thrown: it passes exactly
for symmetric quadratic matrices without NaN. -/
theorem C105_second (T : List (List E)) : scalarSecond T = ok (verdict (Symmetric2 T)) := by
  by_cases hT : T = []
  · subst hT
    rw [verdict_true ⟨0, fun i => i.elim0, rfl, fun i => i.elim0, fun i => i.elim0⟩]
    rfl
  by_cases hs : ∀ r ∈ T, r.length = T.length
  · obtain ⟨t, ht⟩ := shape2 T rfl hs
    rw [congrArg scalarSecond ht, scalarSecond_table]
    refine congrArg ok (verdict_congr ⟨fun H => ⟨_, t, ht, H⟩, ?_⟩)
    rintro ⟨n, u, hu, H⟩
    have hn : n = T.length := by rw [hu, length_table2]
    subst hn
    rw [table2_injective (ht.symm.trans hu)]
    exact H
  · rw [verdict_false]
    · obtain ⟨x, xs, rfl⟩ := List.exists_cons_of_ne_nil hT
      rw [scalarSecond]
      have h0 : at' (x :: xs) 0 = ok x := rfl
      simp only [List.isEmpty_cons, h0, bind_ok, Bool.false_eq_true, if_false]
      by_cases hx : (x :: xs).length = x.length
      · rw [if_neg (by simpa using hx), if_pos]
        rw [List.any_eq_true]
        push Not at hs
        obtain ⟨r, hr, hrl⟩ := hs
        exact ⟨r, hr, by rw [hx] at hrl; simpa using hrl⟩
      · rw [if_pos hx]
    · rintro ⟨n, u, hu, H⟩
      apply hs
      intro r hr
      rw [hu] at hr ⊢
      obtain ⟨i, rfl⟩ := mem_table2 u hr
      rw [length_table2, List.length_ofFn]

/-- The check of the fermion mass terms. -/
theorem C105_mass (T : List (List E)) : fermionSecond T = ok (verdict (Symmetric2 T)) := by
  by_cases hT : T = []
  · subst hT
    rw [verdict_true ⟨0, fun i => i.elim0, rfl, fun i => i.elim0, fun i => i.elim0⟩]
    rfl
  have hempty : T.isEmpty = false := by simpa using hT
  rw [fermionSecond]
  simp only [hempty, Bool.false_eq_true, if_false]
  by_cases hs : ∀ r ∈ T, r.length = T.length
  · rw [if_neg]
    · obtain ⟨t, ht⟩ := shape2 T rfl hs
      rw [scan_range (n := T.length) _ fun i => ∀ j, t i j = t j i ∧ HasNaN.number (t i j)]
      · refine congrArg ok (verdict_congr ⟨fun H => ⟨_, t, ht, fun i j => (H i j).2,
          fun i j => (H i j).1⟩, ?_⟩)
        rintro ⟨n, u, hu, H⟩
        have hn : n = T.length := by rw [hu, length_table2]
        subst hn
        rw [table2_injective (ht.symm.trans hu)]
        exact fun i j => ⟨H.2 i j, H.1 i j⟩
      · intro i
        refine scan_range (n := T.length) _ _ fun j => ?_
        rw [congrArg (fun L => get2 L (i : Nat) (j : Nat)) ht, congrArg (fun L => get2 L (j : Nat) (i : Nat)) ht]
        simp only [get2_table, bind_ok, differs_eq]
    · rw [Bool.not_eq_true, List.any_eq_false]
      intro r hr
      simp [hs r hr]
  · rw [if_pos, verdict_false]
    · rintro ⟨n, u, hu, H⟩
      apply hs
      intro r hr
      rw [hu] at hr ⊢
      obtain ⟨i, rfl⟩ := mem_table2 u hr
      rw [length_table2, List.length_ofFn]
    · rw [List.any_eq_true]
      push Not at hs
      obtain ⟨r, hr, hrl⟩ := hs
      exact ⟨r, hr, by simpa using fun h => hrl h.symm⟩

/-- The symmetry under the permutations in the code is that under all permutations. -/
theorem sym3_iff {n : Nat} (t : Fin n → Fin n → Fin n → E) :
    (∀ i j k, ∀ p ∈ orders3, t i j k = t (![i, j, k] p.1) (![i, j, k] p.2.1) (![i, j, k] p.2.2) ∧
        HasNaN.number (t i j k)) ↔
      (∀ i j k, HasNaN.number (t i j k)) ∧ ∀ (σ : Equiv.Perm (Fin 3)) (x : Fin 3 → Fin n),
        t (x (σ 0)) (x (σ 1)) (x (σ 2)) = t (x 0) (x 1) (x 2) := by
  have hx : ∀ x : Fin 3 → Fin n, ![x 0, x 1, x 2] = x := fun x => by
    funext q; fin_cases q <;> rfl
  constructor
  · intro H
    refine ⟨fun i j k => (H i j k (0, 2, 1) (by simp [orders3])).2, fun σ x => ?_⟩
    rcases orders3_all σ with h | h
    · obtain ⟨h0, h1, h2⟩ : σ 0 = 0 ∧ σ 1 = 1 ∧ σ 2 = 2 := by simpa using h
      rw [h0, h1, h2]
    · have := (H (x 0) (x 1) (x 2) _ h).1
      rw [hx] at this
      exact this.symm
  · intro H i j k p hp
    obtain ⟨σ, rfl⟩ := orders3_perm p hp
    exact ⟨(H.2 σ ![i, j, k]).symm, H.1 i j k⟩

/-- The check of the cubic couplings of the scalars: it passes exactly for tensors without NaN that
are symmetric under all permutations of the three indices. -/
theorem C105_third (T : List (List (List E))) : scalarThird T = ok (verdict (Symmetric3 T)) := by
  by_cases hT : T = []
  · subst hT
    rw [verdict_true ⟨0, fun i => i.elim0, rfl, fun i => i.elim0, fun _ x => (x 0).elim0⟩]
    rfl
  have hempty : T.isEmpty = false := by simpa using hT
  rw [scalarThird]
  simp only [hempty, Bool.false_eq_true, if_false]
  by_cases hs : ∀ r ∈ T, r.length = T.length ∧ ∀ s ∈ r, s.length = T.length
  · rw [if_neg]
    · obtain ⟨t, ht⟩ := shape3 T rfl (fun r hr => (hs r hr).1) (fun r hr => (hs r hr).2)
      have hg : ∀ i j k : Fin T.length, get3 T i j k = ok (t i j k) := fun i j k => by
        rw [congrArg (fun L => get3 L (i : Nat) (j : Nat) (k : Nat)) ht, get3_table]
      rw [scan_range (n := T.length) _ fun i => ∀ j k, ∀ p ∈ orders3,
        t i j k = t (![i, j, k] p.1) (![i, j, k] p.2.1) (![i, j, k] p.2.2) ∧
          HasNaN.number (t i j k)]
      · refine congrArg ok (verdict_congr ((sym3_iff t).trans ⟨fun H => ⟨_, t, ht, H⟩, ?_⟩))
        rintro ⟨n, u, hu, H⟩
        have hn : n = T.length := by rw [hu, length_table3]
        subst hn
        rw [table3_injective (ht.symm.trans hu)]
        exact H
      · intro i
        refine scan_range (n := T.length) _ _ fun j => ?_
        refine scan_range (n := T.length) _ _ fun k => ?_
        rw [show [((i : Nat), (k : Nat), (j : Nat)), (↑j, ↑i, ↑k), (↑j, ↑k, ↑i), (↑k, ↑i, ↑j),
            (↑k, ↑j, ↑i)] = orders3.map fun p => (((![i, j, k] p.1 : Fin T.length) : Nat),
              ((![i, j, k] p.2.1 : Fin T.length) : Nat), ((![i, j, k] p.2.2 : Fin T.length) : Nat))
          from rfl, scan_map]
        refine scan_eq _ _ _ fun p _ => ?_
        simp only [hg, bind_ok, differs_eq]
    · rw [Bool.not_eq_true, List.any_eq_false]
      intro r hr
      have h2 : (r.any fun s => decide (s.length ≠ T.length)) = false := by
        rw [List.any_eq_false]
        intro s hs'
        simp [(hs r hr).2 s hs']
      rw [Bool.or_eq_true, not_or, h2]
      simp [(hs r hr).1]
  · rw [if_pos, verdict_false]
    · rintro ⟨n, u, hu, H⟩
      apply hs
      intro r hr
      rw [hu] at hr ⊢
      obtain ⟨i, rfl⟩ := mem_table3 u hr
      rw [length_table3, length_table2]
      refine ⟨rfl, fun s hs' => ?_⟩
      obtain ⟨j, rfl⟩ := mem_table2 _ hs'
      rw [List.length_ofFn]
    · rw [List.any_eq_true]
      push Not at hs
      obtain ⟨r, hr, hrl⟩ := hs
      refine ⟨r, hr, ?_⟩
      rw [Bool.or_eq_true]
      by_cases h1 : r.length = T.length
      · obtain ⟨s, hs', hsl⟩ := hrl h1
        exact Or.inr (List.any_eq_true.2 ⟨s, hs', by simpa using hsl⟩)
      · exact Or.inl (by simpa using h1)

/-- The same for four indices. -/
theorem sym4_iff {n : Nat} (t : Fin n → Fin n → Fin n → Fin n → E) :
    (∀ i j k l, ∀ p ∈ orders4.drop 1, t i j k l = t (![i, j, k, l] p.1) (![i, j, k, l] p.2.1)
        (![i, j, k, l] p.2.2.1) (![i, j, k, l] p.2.2.2) ∧ HasNaN.number (t i j k l)) ↔
      (∀ i j k l, HasNaN.number (t i j k l)) ∧ ∀ (σ : Equiv.Perm (Fin 4)) (x : Fin 4 → Fin n),
        t (x (σ 0)) (x (σ 1)) (x (σ 2)) (x (σ 3)) = t (x 0) (x 1) (x 2) (x 3) := by
  have hx : ∀ x : Fin 4 → Fin n, ![x 0, x 1, x 2, x 3] = x := fun x => by
    funext q; fin_cases q <;> rfl
  constructor
  · intro H
    refine ⟨fun i j k l => (H i j k l (0, 1, 3, 2) (by simp [orders4])).2, fun σ x => ?_⟩
    rcases orders4_all σ with h | h
    · obtain ⟨h0, h1, h2, h3⟩ : σ 0 = 0 ∧ σ 1 = 1 ∧ σ 2 = 2 ∧ σ 3 = 3 := by simpa using h
      rw [h0, h1, h2, h3]
    · have := (H (x 0) (x 1) (x 2) (x 3) _ h).1
      rw [hx] at this
      exact this.symm
  · intro H i j k l p hp
    obtain ⟨σ, rfl⟩ := orders4_perm p hp
    exact ⟨(H.2 σ ![i, j, k, l]).symm, H.1 i j k l⟩

/-- The check of the quartic couplings of the scalars: it passes exactly for tensors without NaN
that are symmetric under all permutations of the four indices. -/
theorem C105_fourth (T : List (List (List (List E)))) :
    scalarFourth T = ok (verdict (Symmetric4 T)) := by
  by_cases hT : T = []
  · subst hT
    rw [verdict_true ⟨0, fun i => i.elim0, rfl, fun i => i.elim0, fun _ x => (x 0).elim0⟩]
    rfl
  have hempty : T.isEmpty = false := by simpa using hT
  rw [scalarFourth]
  simp only [hempty, Bool.false_eq_true, if_false]
  by_cases hs : ∀ r ∈ T, r.length = T.length ∧ ∀ s ∈ r, s.length = T.length ∧
      ∀ u ∈ s, u.length = T.length
  · rw [if_neg]
    · obtain ⟨t, ht⟩ := shape4 T rfl (fun r hr => (hs r hr).1)
        (fun r hr s hs' => ((hs r hr).2 s hs').1) (fun r hr s hs' => ((hs r hr).2 s hs').2)
      have hg : ∀ i j k l : Fin T.length, get4 T i j k l = ok (t i j k l) := fun i j k l => by
        rw [congrArg (fun L => get4 L (i : Nat) (j : Nat) (k : Nat) (l : Nat)) ht, get4_table]
      rw [scan_range (n := T.length) _ fun i => ∀ j k l, ∀ p ∈ orders4.drop 1,
        t i j k l = t (![i, j, k, l] p.1) (![i, j, k, l] p.2.1)
        (![i, j, k, l] p.2.2.1) (![i, j, k, l] p.2.2.2) ∧ HasNaN.number (t i j k l)]
      · refine congrArg ok (verdict_congr ((sym4_iff t).trans ⟨fun H => ⟨_, t, ht, H⟩, ?_⟩))
        rintro ⟨n, u, hu, H⟩
        have hn : n = T.length := by rw [hu, length_table4]
        subst hn
        rw [table4_injective (ht.symm.trans hu)]
        exact H
      · intro i
        refine scan_range (n := T.length) _ _ fun j => ?_
        refine scan_range (n := T.length) _ _ fun k => ?_
        refine scan_range (n := T.length) _ _ fun l => ?_
        rw [fourPermutation]
        rw [show (permutationOrders (i : Nat) j k l).drop 1 = _ from orders4_eq ![i, j, k, l],
          scan_map]
        refine scan_eq _ _ _ fun p _ => ?_
        simp only [hg, bind_ok, differs_eq]
    · rw [Bool.not_eq_true, List.any_eq_false]
      intro r hr
      have h2 : (r.any fun s => decide (s.length ≠ T.length) ||
          s.any fun u => decide (u.length ≠ T.length)) = false := by
        rw [List.any_eq_false]
        intro s hs'
        have h3 : (s.any fun u => decide (u.length ≠ T.length)) = false := by
          rw [List.any_eq_false]
          intro u hu
          simp [((hs r hr).2 s hs').2 u hu]
        rw [h3]
        simp [((hs r hr).2 s hs').1]
      rw [Bool.or_eq_true, not_or, h2]
      simp [(hs r hr).1]
  · rw [if_pos, verdict_false]
    · rintro ⟨n, u, hu, H⟩
      apply hs
      intro r hr
      rw [hu] at hr ⊢
      obtain ⟨i, rfl⟩ := mem_table4 u hr
      rw [length_table4, length_table3]
      refine ⟨rfl, fun s hs' => ?_⟩
      obtain ⟨j, rfl⟩ := mem_table3 _ hs'
      rw [length_table2]
      refine ⟨rfl, fun v hv => ?_⟩
      obtain ⟨k, rfl⟩ := mem_table2 _ hv
      rw [List.length_ofFn]
    · rw [List.any_eq_true]
      push Not at hs
      obtain ⟨r, hr, hrl⟩ := hs
      refine ⟨r, hr, ?_⟩
      rw [Bool.or_eq_true]
      by_cases h1 : r.length = T.length
      · obtain ⟨s, hs', hsl⟩ := hrl h1
        refine Or.inr (List.any_eq_true.2 ⟨s, hs', ?_⟩)
        rw [Bool.or_eq_true]
        by_cases h2 : s.length = T.length
        · obtain ⟨u, hu, hul⟩ := hsl h2
          exact Or.inr (List.any_eq_true.2 ⟨u, hu, by simpa using hul⟩)
        · exact Or.inl (by simpa using h2)
      · exact Or.inl (by simpa using fun h => h1 h.symm)

omit [Comparable E] [HasNaN E] [LawfulNe E] in
theorem getElem_shape {A : Type} {m : Nat} {T : List (List A)} (h : 0 < m) (hT : T.length = m)
    (hs : ∀ r ∈ T, r.length = m) : ∃ row inner, at' T 0 = ok row ∧ at' row 0 = ok inner ∧
      row ∈ T ∧ inner ∈ row := by
  have h0 : 0 < T.length := by omega
  have h1 : 0 < T[0].length := by rw [hs _ (List.getElem_mem h0)]; exact h
  exact ⟨T[0], T[0][0], at'_of_lt h0, at'_of_lt h1, List.getElem_mem _, List.getElem_mem _⟩

/-- The check of the Yukawa couplings for tensors whose innermost vectors all have the length `h`:
it passes exactly for tensors without NaN that are symmetric in the two fermions. -/
theorem C105_yukawa_partial (h : Nat) (T : List (List (List E)))
    (hh : ∀ r ∈ T, ∀ s ∈ r, s.length = h) :
    fermionThird T = ok (verdict (FermionSymmetric T)) := by
  by_cases hT : T = []
  · subst hT
    rw [verdict_true ⟨0, 0, fun i => i.elim0, rfl, fun i => i.elim0, fun i => i.elim0⟩]
    rfl
  have hempty : T.isEmpty = false := by simpa using hT
  rw [fermionThird]
  simp only [hempty, Bool.false_eq_true, if_false]
  by_cases hs : ∀ r ∈ T, r.length = T.length
  · rw [if_neg]
    · have hpos : 0 < T.length := List.length_pos_iff.2 hT
      obtain ⟨row, inner, e1, e2, m1, m2⟩ := getElem_shape hpos rfl hs
      simp only [e1, e2, bind_ok]
      obtain ⟨t, ht⟩ := shape3 T rfl hs hh
      have hg : ∀ (i j : Fin T.length) (k : Fin h), get3 T i j k = ok (t i j k) :=
        fun i j k => by
          rw [congrArg (fun L => get3 L (i : Nat) (j : Nat) (k : Nat)) ht, get3_table]
      rw [hh row m1 inner m2]
      rw [scan_range (n := T.length) _ fun i => ∀ j k, t i j k = t j i k ∧ HasNaN.number (t i j k)]
      · refine congrArg ok (verdict_congr ⟨fun H => ⟨_, h, t, ht, fun i j k => (H i j k).2,
          fun i j k => (H i j k).1⟩, ?_⟩)
        rintro ⟨n, h', u, hu, H⟩
        have hn : n = T.length := by rw [hu, length_table3]
        subst hn
        have hh' : h' = h := by
          have := hh row m1 inner m2
          rw [← this]
          rw [hu] at m1
          obtain ⟨i, rfl⟩ := mem_table3 u m1
          obtain ⟨j, rfl⟩ := mem_table2 _ m2
          rw [List.length_ofFn]
        subst hh'
        rw [table3_injective (ht.symm.trans hu)]
        exact fun i j k => ⟨H.2 i j k, H.1 i j k⟩
      · intro i
        refine scan_range (n := T.length) _ _ fun j => ?_
        refine scan_range (n := h) _ _ fun k => ?_
        simp only [hg, bind_ok, differs_eq]
    · rw [Bool.not_eq_true, List.any_eq_false]
      intro r hr
      simp [hs r hr]
  · rw [if_pos, verdict_false]
    · rintro ⟨n, h', u, hu, H⟩
      apply hs
      intro r hr
      rw [hu] at hr ⊢
      obtain ⟨i, rfl⟩ := mem_table3 u hr
      rw [length_table3, length_table2]
    · rw [List.any_eq_true]
      push Not at hs
      obtain ⟨r, hr, hrl⟩ := hs
      exact ⟨r, hr, by simpa using fun h => hrl h.symm⟩

/-- For vectors of different lengths the check of the Yukawa couplings does not do this: it accepts
a tensor with a superfluous entry, and throws if an entry is missing. -/
theorem C105_yukawa_fails :
    (∃ T : List (List (List (Cplx Int))), fermionThird T = ok .pass ∧ ¬ FermionSymmetric T) ∧
      ∃ T : List (List (List (Cplx Int))), fermionThird T = err .outOfRange := by
  refine ⟨⟨[[[(.fin 1, .fin 0)], [(.fin 2, .fin 0)]],
    [[(.fin 2, .fin 0)], [(.fin 3, .fin 0), (.nan, .nan)]]], by decide +kernel, ?_⟩,
    ⟨[[[(.fin 1, .fin 0)], [(.fin 2, .fin 0)]], [[(.fin 2, .fin 0)], []]], by decide +kernel⟩⟩
  rintro ⟨n, h, t, ht, H⟩
  have hn : n = 2 := by
    have := congrArg List.length ht
    rw [length_table3] at this
    exact this.symm
  subst hn
  have h0 := congrArg (fun T => (T.map fun r => r.map List.length)) ht
  simp [table3, table2] at h0
  omega

/-- The check of the gauge couplings: it passes exactly for tensors without NaN that are symmetric
in the two gauge bosons and in the two scalars. -/
theorem C105_gauge (T : List (List (List (List E)))) : gauge T = ok (verdict (GaugeSymmetric T)) := by
  by_cases hT : T = []
  · subst hT
    rw [verdict_true ⟨0, 0, fun i => i.elim0, rfl, Or.inl rfl, fun i => i.elim0, fun i => i.elim0⟩]
    rfl
  have hempty : T.isEmpty = false := by simpa using hT
  have hpos : 0 < T.length := List.length_pos_iff.2 hT
  rw [gauge]
  simp only [hempty, Bool.false_eq_true, if_false]
  by_cases hs : ∀ r ∈ T, r.length = T.length
  · rw [if_neg]
    · obtain ⟨row, inner, e1, e2, m1, m2⟩ := getElem_shape hpos rfl hs
      simp only [e1, e2, bind_ok]
      by_cases hz : inner.length = 0
      · rw [if_pos hz, verdict_false]
        rintro ⟨n, h, u, hu, hnh, H⟩
        have hn : n = T.length := by rw [hu, length_table4]
        rw [hu] at m1
        obtain ⟨i, rfl⟩ := mem_table4 u m1
        obtain ⟨j, rfl⟩ := mem_table3 _ m2
        rw [length_table2] at hz
        omega
      rw [if_neg hz]
      by_cases hd : ∀ r ∈ T, ∀ s ∈ r, s.length = inner.length ∧ ∀ u ∈ s, u.length = inner.length
      · rw [if_neg]
        · obtain ⟨t, ht⟩ := shape4 T rfl hs (fun r hr s hs' => (hd r hr s hs').1)
            (fun r hr s hs' => (hd r hr s hs').2)
          have hg : ∀ (a b : Fin T.length) (i j : Fin inner.length),
              get4 T a b i j = ok (t a b i j) := fun a b i j => by
            rw [congrArg (fun L => get4 L (a : Nat) (b : Nat) (i : Nat) (j : Nat)) ht, get4_table]
          rw [scan_range (n := T.length) _ fun a => ∀ b i j,
            (t a b i j = t a b j i ∧ HasNaN.number (t a b i j)) ∧
            (t a b i j = t b a j i ∧ HasNaN.number (t a b i j)) ∧
            (t a b i j = t b a i j ∧ HasNaN.number (t a b i j))]
          · refine congrArg ok (verdict_congr ⟨fun H => ⟨_, _, t, ht,
              Or.inr (Nat.pos_of_ne_zero hz), fun a b i j => (H a b i j).1.2,
              fun a b i j => ⟨(H a b i j).2.2.1, (H a b i j).1.1⟩⟩, ?_⟩)
            rintro ⟨n, h, u, hu, hnh, H⟩
            have hn : n = T.length := by rw [hu, length_table4]
            subst hn
            have hh' : h = inner.length := by
              rw [hu] at m1
              obtain ⟨i, rfl⟩ := mem_table4 u m1
              obtain ⟨j, rfl⟩ := mem_table3 _ m2
              rw [length_table2]
            subst hh'
            rw [table4_injective (ht.symm.trans hu)]
            exact fun a b i j => ⟨⟨(H.2 a b i j).2, H.1 a b i j⟩,
              ⟨(H.2 a b i j).1.trans (H.2 b a i j).2, H.1 a b i j⟩,
              ⟨(H.2 a b i j).1, H.1 a b i j⟩⟩
          · intro a
            refine scan_range (n := T.length) _ _ fun b => ?_
            refine scan_range (n := inner.length) _ _ fun i => ?_
            refine scan_range (n := inner.length) _ _ fun j => ?_
            rw [scan_eq _ _ fun p : Nat × Nat × Nat × Nat =>
              ∀ y, get4 T p.1 p.2.1 p.2.2.1 p.2.2.2 = ok y →
                t a b i j = y ∧ HasNaN.number (t a b i j)]
            · refine congrArg ok (verdict_congr ?_)
              simp [hg]
            · intro p hp
              have key : ∀ y, get4 T p.1 p.2.1 p.2.2.1 p.2.2.2 = ok y → (do
                  let x ← get4 T (a : Nat) b i j
                  let y ← get4 T p.1 p.2.1 p.2.2.1 p.2.2.2
                  ok (differs x y)) = ok (verdict (∀ y, get4 T p.1 p.2.1 p.2.2.1 p.2.2.2 = ok y →
                t a b i j = y ∧ HasNaN.number (t a b i j))) := by
                intro y hy
                simp only [hg, hy, bind_ok, differs_eq]
                refine congrArg ok (verdict_congr ⟨fun H z hz' => ?_, fun H => H y rfl⟩)
                rw [← (Outcome.ok.inj hz')]; exact H
              simp only [List.mem_cons, List.not_mem_nil, or_false] at hp
              rcases hp with rfl | rfl | rfl
              · exact key _ (hg a b j i)
              · exact key _ (hg b a j i)
              · exact key _ (hg b a i j)
        · rw [Bool.not_eq_true, List.any_eq_false]
          intro r hr
          rw [Bool.not_eq_true, List.any_eq_false]
          intro s hs'
          have h3 : (s.any fun u => decide (u.length ≠ inner.length)) = false := by
            rw [List.any_eq_false]
            intro u hu
            simp [(hd r hr s hs').2 u hu]
          rw [h3]
          simp [(hd r hr s hs').1]
      · rw [if_pos, verdict_false]
        · rintro ⟨n, h, u, hu, hnh, H⟩
          apply hd
          have hh' : h = inner.length := by
            have m1' := m1
            rw [hu] at m1'
            obtain ⟨i, rfl⟩ := mem_table4 u m1'
            obtain ⟨j, rfl⟩ := mem_table3 _ m2
            rw [length_table2]
          intro r hr s hs'
          rw [hu] at hr
          obtain ⟨i, rfl⟩ := mem_table4 u hr
          obtain ⟨j, rfl⟩ := mem_table3 _ hs'
          rw [length_table2]
          refine ⟨hh', fun v hv => ?_⟩
          obtain ⟨k, rfl⟩ := mem_table2 _ hv
          rw [List.length_ofFn, hh']
        · rw [List.any_eq_true]
          push Not at hd
          obtain ⟨r, hr, s, hs', hsl⟩ := hd
          refine ⟨r, hr, List.any_eq_true.2 ⟨s, hs', ?_⟩⟩
          rw [Bool.or_eq_true]
          by_cases h2 : s.length = inner.length
          · obtain ⟨u, hu, hul⟩ := hsl h2
            exact Or.inr (List.any_eq_true.2 ⟨u, hu, by simpa using hul⟩)
          · exact Or.inl (by simpa using h2)
    · rw [Bool.not_eq_true, List.any_eq_false]
      intro r hr
      simp [hs r hr]
  · rw [if_pos, verdict_false]
    · rintro ⟨n, h', u, hu, hnh, H⟩
      apply hs
      intro r hr
      rw [hu] at hr ⊢
      obtain ⟨i, rfl⟩ := mem_table4 u hr
      rw [length_table4, length_table3]
    · rw [List.any_eq_true]
      push Not at hs
      obtain ⟨r, hr, hrl⟩ := hs
      exact ⟨r, hr, by simpa using hrl⟩

example : scalarSecond [[(.fin 1 : Flt Int), .fin 2], [.fin 2, .fin 3]] = ok .pass ∧
    scalarSecond [[(.fin 1 : Flt Int), .fin 2], [.fin 0, .fin 3]] = ok .fail ∧
    scalarSecond [[(.nan : Flt Int)]] = ok .fail ∧
    scalarSecond [[(.fin 1 : Flt Int), .fin 2]] = ok .fail := by decide +kernel

end Verif.Check
