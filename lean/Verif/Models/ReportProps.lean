import Verif.Models.Report
import Mathlib.Tactic.Linarith
import Mathlib.Tactic.NormNum
import Mathlib.Data.List.Induction
import Mathlib.Data.Rat.Cast.Order

/-!
# C134: the spectrum printed by `write`
-/

set_option linter.unusedVariables false
set_option linter.unusedSimpArgs false
set_option linter.style.longLine false
set_option linter.unusedSectionVars false

namespace Verif.Models.Report

open Outcome

variable {K : Type} [Field K] [LinearOrder K] [IsStrictOrderedRing K]

namespace ReportSpec

/-- row `i` contains the fields `cols` -/
def Shows (R : Nat → Nat → K) (cols : List Nat) (i : Nat) : Prop :=
  (1 : K) / 100000 < (cols.map fun j => |R i j|).sum

/-- `r` is the last row from `lo` to `hi - 1` that contains the fields, 0 if there is none -/
def IsLast (R : Nat → Nat → K) (cols : List Nat) (lo hi r : Nat) : Prop :=
  (lo ≤ r ∧ r < hi ∧ Shows R cols r ∧ ∀ i, r < i → i < hi → ¬ Shows R cols i) ∨
  (r = 0 ∧ ∀ i, lo ≤ i → i < hi → ¬ Shows R cols i)

/-- `n` are exactly the rows from 3 to `hi - 1` that contain the fields, in order -/
def AreRows (R : Nat → Nat → K) (cols : List Nat) (hi : Nat) (n : List Nat) : Prop :=
  n.Pairwise (· < ·) ∧ ∀ i, i ∈ n ↔ 3 ≤ i ∧ i < hi ∧ Shows R cols i

/-- how a printed coefficient is read -/
def Reads (t : Char × K) (c : K) : Prop :=
  (t.1 = ' ' ∧ t.2 = c) ∨ (t.1 = '+' ∧ 0 ≤ t.2 ∧ t.2 = c) ∨ (t.1 = '-' ∧ 0 < t.2 ∧ t.2 = -c)

/-- a printed line gives the coefficients -/
def Line (l : List (Char × K)) (c : List K) : Prop := List.Forall₂ Reads l c

/-- the three names are right: the three rows are the rows `n` in some order, the printed mass is
the mass of the row whose composition is printed, `H_SM` lies between 124 and 126, and `H_l` is
not heavier than `H_h` -/
def NamesRight (root : K → Flt K) (m : Nat → K) (n : List Nat) (mix : Nat → List K)
    (t : ThreeReport K) : Prop :=
  ∃ (s l h : Nat) (ms ml mh : K), [s, l, h].Perm n ∧
    root (m s) = .fin ms ∧ root (m l) = .fin ml ∧ root (m h) = .fin mh ∧
    t.sm = .fin ms ∧ t.down = .fin ml ∧ t.up = .fin mh ∧
    124 < ms ∧ ms < 126 ∧ ml ≤ mh ∧
    Line t.smMix (mix s) ∧ Line t.downMix (mix l) ∧ Line t.upMix (mix h)

end ReportSpec

open ReportSpec

/-! ## Lemmas -/

theorem present_iff (R : Nat → Nat → K) (cols : List Nat) (i : Nat) :
    present R cols i = true ↔ Shows R cols i := by
  simp [present, Shows, zeroThreshold]

omit [IsStrictOrderedRing K] in
theorem foldl_fill (n : Nat) (p : Nat → Bool) (rows : List Nat) :
    rows.foldl (fillStep n p) (ok []) =
      if (rows.filter p).length ≤ n then ok (rows.filter p) else ub .outOfBounds := by
  induction rows using List.reverseRecOn with
  | nil => simp
  | append_singleton rows i ih =>
    rw [List.foldl_append, ih]
    simp only [List.foldl_cons, List.foldl_nil, List.filter_append, List.length_append]
    by_cases hp : p i = true
    · have hs : [i].filter p = [i] := by simp [hp]
      rw [hs]
      by_cases h : (rows.filter p).length ≤ n
      · rw [if_pos h]
        simp only [fillStep, Outcome.bind, hp, if_true, List.length_singleton]
        by_cases h' : (rows.filter p).length < n
        · rw [if_pos h', if_pos (by omega)]
        · rw [if_neg h', if_neg (by omega)]
      · rw [if_neg h, if_neg (by omega)]
        simp [fillStep, Outcome.bind]
    · have hs : [i].filter p = [] := by simp [hp]
      rw [hs]
      by_cases h : (rows.filter p).length ≤ n
      · rw [if_pos h, if_pos (by simpa using h)]
        simp [fillStep, Outcome.bind, hp]
      · rw [if_neg h, if_neg (by simpa using h)]
        simp [fillStep, Outcome.bind]

theorem foldl_last (p : Nat → Bool) (lo : Nat) : ∀ k : Nat,
    (lo ≤ (((List.range (lo + k)).drop lo).foldl (fun pos i => if p i then i else pos) 0) ∧
      (((List.range (lo + k)).drop lo).foldl (fun pos i => if p i then i else pos) 0) < lo + k ∧
      p (((List.range (lo + k)).drop lo).foldl (fun pos i => if p i then i else pos) 0) = true ∧
      ∀ i, (((List.range (lo + k)).drop lo).foldl (fun pos i => if p i then i else pos) 0) < i →
        i < lo + k → ¬ p i = true) ∨
    ((((List.range (lo + k)).drop lo).foldl (fun pos i => if p i then i else pos) 0) = 0 ∧
      ∀ i, lo ≤ i → i < lo + k → ¬ p i = true) := by
  intro k
  induction k with
  | zero =>
    right
    refine ⟨?_, fun i h1 h2 => by omega⟩
    rw [List.drop_eq_nil_of_le (by simp)]
    rfl
  | succ k ih =>
    have hr : (List.range (lo + (k + 1))).drop lo = (List.range (lo + k)).drop lo ++ [lo + k] := by
      rw [← Nat.add_assoc, List.range_succ, List.drop_append_of_le_length (by simp)]
    rw [hr, List.foldl_append]
    simp only [List.foldl_cons, List.foldl_nil]
    by_cases hp : p (lo + k) = true
    · left
      rw [if_pos hp]
      exact ⟨by omega, by omega, hp, fun i h1 h2 => by omega⟩
    · rw [if_neg hp]
      rcases ih with ⟨h1, h2, h3, h4⟩ | ⟨h1, h2⟩
      · left
        refine ⟨h1, by omega, h3, fun i hi hk => ?_⟩
        by_cases hik : i = lo + k
        · rw [hik]; exact hp
        · exact h4 i hi (by omega)
      · right
        refine ⟨h1, fun i hi hk => ?_⟩
        by_cases hik : i = lo + k
        · rw [hik]; exact hp
        · exact h2 i hi (by omega)

theorem last_physical (R : Nat → Nat → K) (cols : List Nat) (k : Nat) :
    IsLast R cols 3 (3 + k) (lastRow (present R cols) (physicalRows (3 + k))) := by
  have h := foldl_last (present R cols) 3 k
  simp only [present_iff] at h
  exact h

theorem last_goldstone (R : Nat → Nat → K) (cols : List Nat) :
    IsLast R cols 0 3 (lastRow (present R cols) goldstoneRows) := by
  have h := foldl_last (present R cols) 0 3
  simp only [present_iff] at h
  exact h

theorem isLast_unique {R : Nat → Nat → K} {cols : List Nat} {lo hi r r' : Nat}
    (h : IsLast R cols lo hi r) (h' : IsLast R cols lo hi r') : r = r' := by
  rcases h with ⟨a1, a2, a3, a4⟩ | ⟨a1, a2⟩ <;> rcases h' with ⟨b1, b2, b3, b4⟩ | ⟨b1, b2⟩
  · by_contra hne
    rcases Nat.lt_or_gt_of_ne hne with hlt | hlt
    · exact a4 _ hlt b2 b3
    · exact b4 _ hlt a2 a3
  · exact absurd a3 (b2 _ a1 a2)
  · exact absurd b3 (a2 _ b1 b2)
  · omega

theorem filter_rows (R : Nat → Nat → K) (cols : List Nat) (hi : Nat) :
    AreRows R cols hi ((physicalRows hi).filter (present R cols)) := by
  refine ⟨?_, fun i => ?_⟩
  · exact ((List.pairwise_lt_range).sublist (List.drop_sublist _ _)).sublist List.filter_sublist
  · rw [List.mem_filter, present_iff, physicalRows]
    have : i ∈ (List.range hi).drop 3 ↔ 3 ≤ i ∧ i < hi := by
      rw [List.mem_iff_getElem]
      constructor
      · rintro ⟨j, hj, rfl⟩
        simp only [List.length_drop, List.length_range] at hj
        simp only [List.getElem_drop, List.getElem_range]
        omega
      · rintro ⟨h1, h2⟩
        refine ⟨i - 3, by simp; omega, ?_⟩
        simp only [List.getElem_drop, List.getElem_range]
        omega
    rw [this]
    tauto

theorem areRows_unique {R : Nat → Nat → K} {cols : List Nat} {hi : Nat} {n n' : List Nat}
    (h : AreRows R cols hi n) (h' : AreRows R cols hi n') : n = n' := by
  refine List.Perm.eq_of_pairwise (le := (· < ·)) (fun a b _ _ h1 h2 => by omega) h.1 h'.1 ?_
  rw [List.perm_ext_iff_of_nodup (h.1.imp fun h => by omega) (h'.1.imp fun h => by omega)]
  intro a
  rw [h.2, h'.2]

theorem fill_of {R : Nat → Nat → K} {cols : List Nat} {hi n : Nat} {l : List Nat}
    (h : AreRows R cols hi l) :
    fillRows n (present R cols) (physicalRows hi) =
      if l.length ≤ n then ok l else ub .outOfBounds := by
  rw [fillRows, foldl_fill, areRows_unique (filter_rows R cols hi) h]

/-- **C134** the sign and the modulus of a printed coefficient give the coefficient back. -/
theorem C134_signs (c : K) (cs : List K) : Line (composition (c :: cs)) (c :: cs) := by
  refine List.Forall₂.cons (Or.inl ⟨rfl, rfl⟩) ?_
  induction cs with
  | nil => exact List.Forall₂.nil
  | cons x xs ih =>
    refine List.Forall₂.cons ?_ ih
    by_cases hx : x < 0
    · exact Or.inr (Or.inr ⟨by simp [signed, hx], by simp [signed]; exact hx.ne, by
        simp [signed, abs_of_neg hx]⟩)
    · exact Or.inr (Or.inl ⟨by simp [signed, hx], abs_nonneg _, by
        simp [signed, abs_of_nonneg (not_lt.1 hx)]⟩)

/-! ## The real two-doublet model -/

/-- **C134** (R2HDM) if exactly two massive rows contain the CP-even neutral fields, the printed
masses are those of the rows found: `h` is the first, `H` the second, and the two compositions
are theirs; the Goldstone bosons are looked for among the first three rows. -/
theorem C134_r2hdm (root : K → Flt K) (R : Nat → Nat → K) (m : Nat → K) (g1 g0 hp a n0 n1 : Nat)
    (hg1 : IsLast R [0, 2] 0 3 g1) (hg0 : IsLast R [5, 7] 0 3 g0)
    (hhp : IsLast R [0, 2] 3 8 hp) (ha : IsLast R [5, 7] 3 8 a)
    (hn : AreRows R [4, 6] 8 [n0, n1]) :
    ∃ rep, writeR2 root R m = ok rep ∧ rep.gPlusSq = m g1 ∧ rep.g0Sq = m g0 ∧
      rep.hPlus = root (m hp) ∧ rep.light = root (m n0) ∧ rep.heavy = root (m n1) ∧
      rep.odd = root (m a) ∧ Line rep.lightMix [R n0 4, R n0 6] ∧
      Line rep.heavyMix [R n1 4, R n1 6] := by
  have e1 := isLast_unique (last_goldstone R [0, 2]) hg1
  have e2 := isLast_unique (last_goldstone R [5, 7]) hg0
  have e3 := isLast_unique (last_physical R [0, 2] 5) hhp
  have e4 := isLast_unique (last_physical R [5, 7] 5) ha
  have e5 := fill_of (n := 2) hn
  rw [if_pos (by simp)] at e5
  refine ⟨?w, ?e, ?r⟩
  case e =>
    simp only [writeR2, e1, e2, e5]
    rfl
  case r =>
    refine ⟨rfl, rfl, ?_, rfl, rfl, ?_, C134_signs _ _, C134_signs _ _⟩
    · exact congrArg (fun i => root (m i)) e3
    · exact congrArg (fun i => root (m i)) e4

/-- **C134** (R2HDM) more than two massive rows with CP-even neutral fields — as when two
degenerate bosons are rotated into each other — are written past the end of the array `posN`. -/
theorem C134_r2hdm_overflow (root : K → Flt K) (R : Nat → Nat → K) (m : Nat → K) (n : List Nat)
    (hn : AreRows R [4, 6] 8 n) (h : 2 < n.length) :
    writeR2 root R m = ub .outOfBounds := by
  have e5 := fill_of (n := 2) hn
  rw [if_neg (by omega)] at e5
  simp only [writeR2, e5]
  rfl

/-- **C134** (R2HDM) fewer than two — as when one of them is among the three lightest states — and
an entry of `posN` that was never written is used as a row. -/
theorem C134_r2hdm_missing (root : K → Flt K) (R : Nat → Nat → K) (m : Nat → K) (n : List Nat)
    (hn : AreRows R [4, 6] 8 n) (h : n.length < 2) :
    writeR2 root R m = ub .uninitialised := by
  have e5 := fill_of (n := 2) hn
  rw [if_pos (by omega)] at e5
  simp only [writeR2, e5]
  match n, h with
  | [], _ => rfl
  | [_], _ => rfl

/-! ## The three neutral bosons -/

/-- the naming as an equation of the masses -/
theorem names_right (root : K → Flt K) (m : Nat → K) (mix : Nat → List K)
    (hmix : ∀ i, Line (composition (mix i)) (mix i)) (n0 n1 n2 : Nat) (a b c : K)
    (ha : root (m n0) = .fin a) (hb : root (m n1) = .fin b) (hc : root (m n2) = .fin c)
    (hab : a ≤ b) (hbc : b ≤ c)
    (hw : (124 < a ∧ a < 126) ∨ (124 < b ∧ b < 126) ∨ (124 < c ∧ c < 126)) :
    NamesRight root m [n0, n1, n2] mix (threeReport mix (nameThree root m (n0, n1, n2))) := by
  have p1 : [n1, n0, n2].Perm [n0, n1, n2] := List.Perm.swap _ _ _
  have p2 : [n2, n0, n1].Perm [n0, n1, n2] :=
    (List.Perm.swap n0 n2 [n1]).trans ((List.Perm.swap n1 n2 []).cons n0)
  have hx : ∀ x y : K, Flt.ne (.fin x) (.fin y) = decide (x ≠ y) := fun _ _ => rfl
  have hl : ∀ x y : K, Flt.lt (.fin x) (.fin y) = decide (x < y) := fun _ _ => rfl
  have hg : ∀ x y : K, Flt.gt (.fin x) (.fin y) = decide (y < x) := fun _ _ => rfl
  -- the boson in the window
  by_cases wc : 124 < c ∧ c < 126
  · have hs : smMass (.fin a) (.fin b) (.fin c : Flt K) = .fin c := by
      simp [smMass, smStep, wc]
    by_cases e1 : a = c
    · subst e1
      have e2 : b = a := le_antisymm hbc hab
      subst e2
      refine ⟨n0, n1, n2, b, b, b, List.Perm.refl _, ha, hb, hc, ?_, ?_, ?_, wc.1, wc.2, le_refl _,
        ?_, ?_, ?_⟩ <;>
        simp [threeReport, nameThree, ha, hb, hc, hs, otherMasses, sortRows, hx, hg, hmix]
    · by_cases e2 : b = c
      · subst e2
        have hlt : a < b := lt_of_le_of_ne hab e1
        refine ⟨n1, n0, n2, b, a, b, p1, hb, ha, hc, ?_, ?_, ?_, wc.1, wc.2, hab, ?_, ?_, ?_⟩ <;>
        simp [threeReport, nameThree, ha, hb, hc, hs, otherMasses, sortRows, hx, hg, hmix, e1, hlt]
      · have hlt : b < c := lt_of_le_of_ne hbc e2
        have hlt' : a < c := lt_of_le_of_ne (hab.trans hbc) e1
        refine ⟨n2, n0, n1, c, a, b, p2, hc, ha, hb, ?_, ?_, ?_, wc.1, wc.2, hab, ?_, ?_, ?_⟩ <;>
        simp [threeReport, nameThree, ha, hb, hc, hs, otherMasses, sortRows, hx, hg, hmix, e1, e2,
          hlt, hlt']
  · have wc' : ¬ (c < 126 ∧ 124 < c) := fun h => wc ⟨h.2, h.1⟩
    by_cases wb : 124 < b ∧ b < 126
    · have hs : smMass (.fin a) (.fin b) (.fin c : Flt K) = .fin b := by
        simp only [smMass, smStep, List.foldl_cons, List.foldl_nil, hl, hg]
        rw [if_neg (by simpa using fun h1 => not_lt.1 fun h2 => wc' ⟨h1, h2⟩),
          if_pos (by simp [wb])]
      have hcb : ¬ c < b := not_lt.2 hbc
      by_cases e1 : a = b
      · subst e1
        refine ⟨n0, n1, n2, a, a, c, List.Perm.refl _, ha, hb, hc, ?_, ?_, ?_, wb.1, wb.2, hbc,
          ?_, ?_, ?_⟩ <;>
        simp [threeReport, nameThree, ha, hb, hc, hs, otherMasses, sortRows, hx, hg, hmix, hcb]
      · have hlt : a < b := lt_of_le_of_ne hab e1
        refine ⟨n1, n0, n2, b, a, c, p1, hb, ha, hc, ?_, ?_, ?_, wb.1, wb.2, hab.trans hbc,
          ?_, ?_, ?_⟩ <;>
        simp [threeReport, nameThree, ha, hb, hc, hs, otherMasses, sortRows, hx, hg, hmix, hcb, e1,
          hlt]
    · have wb' : ¬ (b < 126 ∧ 124 < b) := fun h => wb ⟨h.2, h.1⟩
      have wa : 124 < a ∧ a < 126 := by
        rcases hw with h | h | h
        · exact h
        · exact absurd h wb
        · exact absurd h wc
      have hs : smMass (.fin a) (.fin b) (.fin c : Flt K) = .fin a := by
        simp only [smMass, smStep, List.foldl_cons, List.foldl_nil, hl, hg]
        rw [if_neg (by simpa using fun h1 => not_lt.1 fun h2 => wc' ⟨h1, h2⟩),
          if_neg (by simpa using fun h1 => not_lt.1 fun h2 => wb' ⟨h1, h2⟩),
          if_pos (by simp [wa])]
      have hcb : ¬ c < a := not_lt.2 (hab.trans hbc)
      have hcb' : ¬ b < a := not_lt.2 hab
      refine ⟨n0, n1, n2, a, b, c, List.Perm.refl _, ha, hb, hc, ?_, ?_, ?_, wa.1, wa.2, hbc,
        ?_, ?_, ?_⟩ <;>
      simp [threeReport, nameThree, ha, hb, hc, hs, otherMasses, sortRows, hx, hg, hmix, hcb, hcb']

/-- **C134** (N2HDM) with three massive rows of the CP-even neutral fields, in the order of their
masses, one of them between 124 and 126, the names, masses and compositions printed belong
together; and the masses of `H^+` and `A` are those of the last rows with these fields. -/
theorem C134_n2hdm (root : K → Flt K) (R : Nat → Nat → K) (m : Nat → K) (hp ap n0 n1 n2 : Nat)
    (a b c : K) (hhp : IsLast R [0, 1] 3 9 hp) (hap : IsLast R [4, 5] 3 9 ap)
    (hn : AreRows R [6, 7, 8] 9 [n0, n1, n2])
    (ha : root (m n0) = .fin a) (hb : root (m n1) = .fin b) (hc : root (m n2) = .fin c)
    (hab : a ≤ b) (hbc : b ≤ c)
    (hw : (124 < a ∧ a < 126) ∨ (124 < b ∧ b < 126) ∨ (124 < c ∧ c < 126)) :
    ∃ rep, writeN2 root R m = ok rep ∧ rep.hPlus = root (m hp) ∧ rep.odd = root (m ap) ∧
      NamesRight root m [n0, n1, n2] (fun i => [R i 6, R i 7, R i 8]) rep.neutral := by
  have e3 := isLast_unique (last_physical R [0, 1] 6) hhp
  have e4 := isLast_unique (last_physical R [4, 5] 6) hap
  have e5 := fill_of (n := 3) hn
  rw [if_pos (by simp)] at e5
  refine ⟨?w, ?e, ?r⟩
  case e =>
    simp only [writeN2, e5]
    rfl
  case r =>
    refine ⟨congrArg (fun i => root (m i)) e3, congrArg (fun i => root (m i)) e4, ?_⟩
    exact names_right root m _ (fun i => C134_signs _ _) n0 n1 n2 a b c ha hb hc hab hbc hw

/-- **C134** (N2HDM) any other number of such rows is undefined behaviour. -/
theorem C134_n2hdm_undefined (root : K → Flt K) (R : Nat → Nat → K) (m : Nat → K) (n : List Nat)
    (hn : AreRows R [6, 7, 8] 9 n) (h : n.length ≠ 3) :
    writeN2 root R m = ub (if 3 < n.length then .outOfBounds else .uninitialised) := by
  have e5 := fill_of (n := 3) hn
  by_cases h3 : 3 < n.length
  · rw [if_neg (by omega)] at e5
    simp only [writeN2, e5, if_pos h3]
    rfl
  · rw [if_pos (by omega)] at e5
    simp only [writeN2, e5, if_neg h3]
    match n, h, h3 with
    | [], _, _ => rfl
    | [_], _, _ => rfl
    | [_, _], _, _ => rfl
    | [_, _, _], h, _ => exact absurd rfl h
    | _ :: _ :: _ :: _ :: _, _, h3 => simp at h3

/-- **C134** (C2HDM) the same for the three massive neutral bosons of the complex model, where the
third coefficient is that of the CP-odd field orthogonal to the Goldstone boson. -/
theorem C134_c2hdm (root : K → Flt K) (sinB cosB : K) (R : Nat → Nat → K) (m : Nat → K)
    (hp n0 n1 n2 : Nat) (a b c : K) (hhp : IsLast R [0, 2] 3 8 hp)
    (hn : AreRows R [4, 5, 6, 7] 8 [n0, n1, n2])
    (ha : root (m n0) = .fin a) (hb : root (m n1) = .fin b) (hc : root (m n2) = .fin c)
    (hab : a ≤ b) (hbc : b ≤ c)
    (hw : (124 < a ∧ a < 126) ∨ (124 < b ∧ b < 126) ∨ (124 < c ∧ c < 126)) :
    ∃ rep, writeC2 true root sinB cosB R m = ok (some rep) ∧ rep.hPlus = root (m hp) ∧
      NamesRight root m [n0, n1, n2]
        (fun i => [R i 4, R i 6, cosB * R i 7 - sinB * R i 5]) rep.neutral := by
  have e3 := isLast_unique (last_physical R [0, 2] 5) hhp
  have e5 := fill_of (n := 3) hn
  rw [if_pos (by simp)] at e5
  refine ⟨?w, ?e, ?r⟩
  case e =>
    simp only [writeC2, e5, if_true]
    rfl
  case r =>
    refine ⟨congrArg (fun i => root (m i)) e3, ?_⟩
    have hm : mixC2 sinB cosB R = fun i => [R i 4, R i 6, cosB * R i 7 - sinB * R i 5] := by
      funext i
      have : -sinB * R i 5 + cosB * R i 7 = cosB * R i 7 - sinB * R i 5 := by
        rw [neg_mul, neg_add_eq_sub]
      simp only [mixC2, this]
    rw [hm]
    exact names_right root m _ (fun i => C134_signs _ _) n0 n1 n2 a b c ha hb hc hab hbc hw

/-- **C134** (C2HDM) before the couplings are calculated no spectrum is printed; afterwards any
number of massive neutral rows other than three is undefined behaviour. -/
theorem C134_c2hdm_undefined (root : K → Flt K) (sinB cosB : K) (R : Nat → Nat → K) (m : Nat → K)
    (n : List Nat) (hn : AreRows R [4, 5, 6, 7] 8 n) (h : n.length ≠ 3) :
    writeC2 false root sinB cosB R m = ok none ∧
    writeC2 true root sinB cosB R m =
      ub (if 3 < n.length then .outOfBounds else .uninitialised) := by
  refine ⟨rfl, ?_⟩
  have e5 := fill_of (n := 3) hn
  by_cases h3 : 3 < n.length
  · rw [if_neg (by omega)] at e5
    simp only [writeC2, e5, if_pos h3, if_true]
    rfl
  · rw [if_pos (by omega)] at e5
    simp only [writeC2, e5, if_neg h3, if_true]
    match n, h, h3 with
    | [], _, _ => rfl
    | [_], _, _ => rfl
    | [_, _], _, _ => rfl
    | [_, _, _], h, _ => exact absurd rfl h
    | _ :: _ :: _ :: _ :: _, _, h3 => simp at h3

/-- **C134** (CxSM) the same for the rows 3, 4, 5; the charged Goldstone boson printed is a row
with charged fields if one of the first three has them. -/
theorem C134_cxsm (root : K → Flt K) (R : Nat → Nat → K) (m : Nat → K) (g0 : Nat)
    (a b c : K) (hg0 : IsLast R [2] 0 3 g0)
    (ha : root (m 3) = .fin a) (hb : root (m 4) = .fin b) (hc : root (m 5) = .fin c)
    (hab : a ≤ b) (hbc : b ≤ c)
    (hw : (124 < a ∧ a < 126) ∨ (124 < b ∧ b < 126) ∨ (124 < c ∧ c < 126)) :
    (writeCx root R m).g0Sq = m g0 ∧
    ((∃ i, i < 3 ∧ Shows R [0, 1] i) →
      ∃ i, i < 3 ∧ Shows R [0, 1] i ∧ (writeCx root R m).gPlusSq = m i) ∧
    NamesRight root m [3, 4, 5] (fun i => [R i 3, R i 4, R i 5]) (writeCx root R m).neutral := by
  refine ⟨?_, ?_, names_right root m _ (fun i => C134_signs _ _) 3 4 5 a b c ha hb hc hab hbc hw⟩
  · exact congrArg m (isLast_unique (last_goldstone R [2]) hg0)
  · rintro ⟨i, hi, hs⟩
    have key : ∀ p : Nat → Bool, (∃ i, i < 3 ∧ p i = true) →
        ∃ i, i < 3 ∧ p i = true ∧ chargedRow p goldstoneRows = i := by
      intro p ⟨i, hi, hp⟩
      have hr : goldstoneRows = [0, 1, 2] := rfl
      rw [hr]
      simp only [chargedRow, List.foldl_cons, List.foldl_nil]
      have hi' : i = 0 ∨ i = 1 ∨ i = 2 := by omega
      by_cases h1 : p 1 = true
      · exact ⟨1, by omega, h1, by simp [h1]⟩
      · by_cases h2 : p 2 = true
        · exact ⟨2, by omega, h2, by simp [h1, h2]⟩
        · rcases hi' with rfl | rfl | rfl
          · exact ⟨0, by omega, hp, by simp [h1, h2]⟩
          · exact absurd hp h1
          · exact absurd hp h2
    obtain ⟨j, hj, hpj, hcj⟩ := key (present R [0, 1]) ⟨i, hi, (present_iff _ _ _).2 hs⟩
    exact ⟨j, hj, (present_iff _ _ _).1 hpj, congrArg m hcj⟩

/-- **C134** if no neutral boson lies between 124 and 126 (and none is massless) the mass printed
for `H_SM` is 0 although every row has a mass above, the mass of the heaviest boson is not
printed, and the composition printed for `H_l` is that of the second boson while the mass is that
of the first. -/
theorem C134_no_sm_like (root : K → Flt K) (m : Nat → K) (mix : Nat → List K) (n0 n1 n2 : Nat)
    (a b c : K)
    (ha : root (m n0) = .fin a) (hb : root (m n1) = .fin b) (hc : root (m n2) = .fin c)
    (ha0 : 0 < a) (hab : a < b) (hbc : b < c)
    (hw : ∀ x ∈ [a, b, c], ¬ (124 < x ∧ x < 126)) :
    (threeReport mix (nameThree root m (n0, n1, n2))).sm = .fin 0 ∧
    (threeReport mix (nameThree root m (n0, n1, n2))).down = .fin a ∧
    (threeReport mix (nameThree root m (n0, n1, n2))).up = .fin b ∧
    (threeReport mix (nameThree root m (n0, n1, n2))).smMix = composition (mix n0) ∧
    (threeReport mix (nameThree root m (n0, n1, n2))).downMix = composition (mix n1) ∧
    (threeReport mix (nameThree root m (n0, n1, n2))).upMix = composition (mix n2) := by
  have hx : ∀ x y : K, Flt.ne (.fin x) (.fin y) = decide (x ≠ y) := fun _ _ => rfl
  have hl : ∀ x y : K, Flt.lt (.fin x) (.fin y) = decide (x < y) := fun _ _ => rfl
  have hg : ∀ x y : K, Flt.gt (.fin x) (.fin y) = decide (y < x) := fun _ _ => rfl
  have st : ∀ (s : Flt K) (x : K), ¬ (124 < x ∧ x < 126) → smStep s (.fin x) = s := by
    intro s x h
    rw [smStep, hl, hg, if_neg]
    simp only [Bool.and_eq_true, decide_eq_true_eq]
    exact fun h' => h ⟨h'.2, h'.1⟩
  have hs : smMass (.fin a) (.fin b) (.fin c : Flt K) = .fin 0 := by
    simp only [smMass, List.foldl_cons, List.foldl_nil]
    rw [st _ _ (hw a (by simp)), st _ _ (hw b (by simp)), st _ _ (hw c (by simp))]
  have h0b : (0 : K) < b := ha0.trans hab
  simp [threeReport, nameThree, ha, hb, hc, hs, otherMasses, sortRows, hx, hg, ha0.ne', h0b.ne',
    not_lt.2 ha0.le, not_lt.2 h0b.le]

/-- **C134** so the names are not right for every point: a CxSM point with neutral bosons of 100,
200 and 300 GeV. -/
theorem C134_names_fails :
    ∃ (root : ℚ → Flt ℚ) (m : Nat → ℚ) (R : Nat → Nat → ℚ),
      root (m 3) = .fin 100 ∧ root (m 4) = .fin 200 ∧ root (m 5) = .fin 300 ∧
      ¬ NamesRight root m [3, 4, 5] (fun i => [R i 3, R i 4, R i 5]) (writeCx root R m).neutral := by
  refine ⟨fun x => .fin x, fun i => if i = 3 then 100 else if i = 4 then 200 else 300,
    fun i j => if i = j then 1 else 0, rfl, rfl, rfl, ?_⟩
  rintro ⟨s, l, h, ms, ml, mh, -, -, -, -, h1, -, -, h2, -⟩
  have := (C134_no_sm_like (K := ℚ) (fun x => .fin x)
    (fun i => if i = 3 then 100 else if i = 4 then 200 else 300)
    (fun i => [if i = 3 then 1 else 0, if i = 4 then 1 else 0, if i = 5 then 1 else 0]) 3 4 5
    100 200 300 rfl rfl rfl (by norm_num) (by norm_num) (by norm_num) (by
      intro x hx; simp at hx; rcases hx with rfl | rfl | rfl <;> norm_num)).1
  have h3 : (Flt.fin 0 : Flt ℚ) = .fin ms := this.symm.trans h1
  injection h3 with h3
  rw [← h3] at h2
  norm_num at h2

/-! ## The dark model -/

/-- **C134** (CPintheDark) if row `v k` is the only one with the visible field `k` (0 to 5), and
`d1 < d2 < d3` are the rows with dark neutral fields, none of them row 0, the nine masses are
printed under their names. -/
theorem C134_dark (root : K → Flt K) (R : Nat → Nat → K) (m : Nat → K) (v : Nat → Nat)
    (d1 d2 d3 : Nat) (hv : ∀ k : Nat, k < 6 → v k < 9)
    (hs : ∀ k : Nat, k < 6 → ∀ i : Nat, i < 9 → (Shows R [k] i ↔ i = v k))
    (hinj : ∀ k l : Nat, k < 6 → l < 6 → v k = v l → k = l)
    (h1 : 0 < d1) (h12 : d1 < d2) (h23 : d2 < d3) (h3 : d3 < 9)
    (hd : ∀ i : Nat, i < 9 → (Shows R [6, 7, 8] i ↔ i = d1 ∨ i = d2 ∨ i = d3)) :
    writeDark root R m =
      [root (m (v 0)), root (m (v 1)), root (m (v 2)), root (m (v 3)), root (m (v 4)),
        root (m (v 5)), root (m d1), root (m d2), root (m d3)] := by
  -- state after the rows below `n`
  have inv : ∀ n : Nat, n ≤ 9 →
      (List.range n).foldl (fun s i => darkStep R (visibleStep R s i) i) {} =
        { gp := if v 0 < n then v 0 else 0
          gm := if v 1 < n then v 1 else 0
          hp := if v 2 < n then v 2 else 0
          hm := if v 3 < n then v 3 else 0
          hsm := if v 4 < n then v 4 else 0
          g0 := if v 5 < n then v 5 else 0
          h1 := if d1 < n then d1 else 0
          h2 := if d2 < n then d2 else 0
          h3 := if d3 < n then d3 else 0 : DarkRows } := by
    intro n hn
    induction n with
    | zero => simp
    | succ n ih =>
      rw [List.range_succ, List.foldl_append, ih (by omega)]
      simp only [List.foldl_cons, List.foldl_nil]
      have st : ∀ x : Nat, (if x < n + 1 then x else 0) =
          if n = x then n else if x < n then x else 0 := by
        intro x
        by_cases h : n = x
        · rw [if_pos h, if_pos (by omega), h]
        · rw [if_neg h]
          by_cases h' : x < n
          · rw [if_pos h', if_pos (by omega)]
          · rw [if_neg h', if_neg (by omega)]
      have pk : ∀ k : Nat, k < 6 → present R [k] n = decide (n = v k) := by
        intro k hk
        rw [Bool.eq_iff_iff, present_iff, decide_eq_true_iff]
        exact hs k hk n (by omega)
      have pd : present R [6, 7, 8] n = decide (n = d1 ∨ n = d2 ∨ n = d3) := by
        rw [Bool.eq_iff_iff, present_iff, decide_eq_true_iff]
        exact hd n (by omega)
      have hvis : ∀ s : DarkRows, visibleStep R s n =
          { s with
            gp := if n = v 0 then n else s.gp
            gm := if n = v 1 then n else s.gm
            hp := if n = v 2 then n else s.hp
            hm := if n = v 3 then n else s.hm
            hsm := if n = v 4 then n else s.hsm
            g0 := if n = v 5 then n else s.g0 } := by
        intro s
        have hne : ∀ k l : Nat, k < 6 → l < 6 → k ≠ l → n = v k → n ≠ v l := by
          intro k l hk hl hkl h1 h2
          exact hkl (hinj k l hk hl (h1.symm.trans h2))
        unfold visibleStep
        rw [pk 0 (by omega), pk 1 (by omega), pk 2 (by omega), pk 3 (by omega), pk 4 (by omega),
          pk 5 (by omega)]
        by_cases c0 : n = v 0
        · have e1 := hne 0 1 (by omega) (by omega) (by omega) c0
          have e2 := hne 0 2 (by omega) (by omega) (by omega) c0
          have e3 := hne 0 3 (by omega) (by omega) (by omega) c0
          have e4 := hne 0 4 (by omega) (by omega) (by omega) c0
          have e5 := hne 0 5 (by omega) (by omega) (by omega) c0
          rw [if_neg e1, if_neg e2, if_neg e3, if_neg e4, if_neg e5]
          simp [c0]
        · by_cases c1 : n = v 1
          · have e2 := hne 1 2 (by omega) (by omega) (by omega) c1
            have e3 := hne 1 3 (by omega) (by omega) (by omega) c1
            have e4 := hne 1 4 (by omega) (by omega) (by omega) c1
            have e5 := hne 1 5 (by omega) (by omega) (by omega) c1
            rw [if_neg c0, if_neg e2, if_neg e3, if_neg e4, if_neg e5]
            simp [c0, c1]
            intro h
            exact absurd (c1.trans h) c0
          · by_cases c2 : n = v 2
            · have e3 := hne 2 3 (by omega) (by omega) (by omega) c2
              have e4 := hne 2 4 (by omega) (by omega) (by omega) c2
              have e5 := hne 2 5 (by omega) (by omega) (by omega) c2
              rw [if_neg c0, if_neg c1, if_neg e3, if_neg e4, if_neg e5]
              rw [if_neg (by simpa using c0), if_neg (by simpa using c1), if_pos (by simpa using c2),
                if_pos c2]
            · by_cases c3 : n = v 3
              · have e4 := hne 3 4 (by omega) (by omega) (by omega) c3
                have e5 := hne 3 5 (by omega) (by omega) (by omega) c3
                rw [if_neg c0, if_neg c1, if_neg c2, if_neg e4, if_neg e5]
                rw [if_neg (by simpa using c0), if_neg (by simpa using c1),
                  if_neg (by simpa using c2), if_pos (by simpa using c3), if_pos c3]
              · by_cases c4 : n = v 4
                · have e5 := hne 4 5 (by omega) (by omega) (by omega) c4
                  rw [if_neg c0, if_neg c1, if_neg c2, if_neg c3, if_neg e5]
                  rw [if_neg (by simpa using c0), if_neg (by simpa using c1),
                    if_neg (by simpa using c2), if_neg (by simpa using c3),
                    if_pos (by simpa using c4), if_pos c4]
                · rw [if_neg c0, if_neg c1, if_neg c2, if_neg c3, if_neg c4]
                  rw [if_neg (by simpa using c0), if_neg (by simpa using c1),
                    if_neg (by simpa using c2), if_neg (by simpa using c3),
                    if_neg (by simpa using c4)]
                  by_cases c5 : n = v 5
                  · rw [if_pos (by simpa using c5), if_pos c5]
                  · rw [if_neg (by simpa using c5), if_neg c5]
      rw [hvis]
      simp only [st]
      unfold darkStep
      rw [pd]
      dsimp only
      by_cases b1 : n = d1
      · rw [if_pos (by simp [b1]), if_pos (by simp [b1]), if_pos b1, if_neg (show ¬ n = d2 by omega),
          if_neg (show ¬ n = d3 by omega)]
      · have l1 : ¬ n = d1 := b1
        by_cases b2 : n = d2
        · have : d1 < n := by omega
          rw [if_pos (by simp [b2]), if_neg (by simp [this]; omega), if_pos (by simp [b2]),
            if_neg l1, if_pos b2, if_neg (show ¬ n = d3 by omega)]
        · by_cases b3 : n = d3
          · have t1 : d1 < n := by omega
            have t2 : d2 < n := by omega
            rw [if_pos (by simp [b3]), if_neg (by simp [t1]; omega), if_neg (by simp [t2]; omega),
              if_neg b1, if_neg b2, if_pos b3]
          · rw [if_neg (by simp [b1, b2, b3]), if_neg b1, if_neg b2, if_neg b3]
  have fin := inv 9 le_rfl
  rw [if_pos (hv 0 (by omega)), if_pos (hv 1 (by omega)), if_pos (hv 2 (by omega)),
    if_pos (hv 3 (by omega)), if_pos (hv 4 (by omega)), if_pos (hv 5 (by omega)),
    if_pos (show d1 < 9 by omega), if_pos (show d2 < 9 by omega), if_pos h3] at fin
  simp only [writeDark, darkRows, fin]

/-- **C134** (CPintheDark) a dark state in row 0 — a dark scalar below the Goldstone bosons — is
not kept: it is printed as the heaviest, `h_3`, and the other two move down. -/
theorem C134_dark_fails :
    ∃ (R : Nat → Nat → ℚ) (m : Nat → ℚ),
      (∀ i j : Nat, i < j → j < 9 → m i ≤ m j) ∧
      (∀ i : Nat, i < 9 → (Shows R [6, 7, 8] i ↔ i = 0 ∨ i = 4 ∨ i = 5)) ∧
      (writeDark (fun x => .fin x) R m).drop 6 = [.fin (m 4), .fin (m 5), .fin (m 0)] ∧
      m 0 < m 4 ∧ m 4 < m 5 := by
  refine ⟨fun i j => if ([6, 0, 1, 5, 7, 8, 2, 3, 4].getD i 0) = j then 1 else 0,
    fun i => i, ?_, ?_, ?_, by norm_num, by norm_num⟩
  · intro i j h _
    show (i : ℚ) ≤ (j : ℚ)
    exact_mod_cast h.le
  · have : ∀ i < 9, (present (K := ℚ)
        (fun i j => if ([6, 0, 1, 5, 7, 8, 2, 3, 4].getD i 0) = j then 1 else 0) [6, 7, 8] i = true
        ↔ i = 0 ∨ i = 4 ∨ i = 5) := by decide +kernel
    intro i hi
    rw [← present_iff]
    exact this i hi
  · decide +kernel

/-! ## Satisfiable hypotheses -/

/-- the hypotheses of `C134_r2hdm` hold for a rotation matrix that only sorts the fields, and those
of the failing cases for a matrix that mixes the fields 4 and 5 in two rows -/
def sorted8 : Nat → Nat → ℚ := fun i j => if ([0, 1, 5, 4, 2, 3, 6, 7].getD i 0) = j then 1 else 0

def mixed8 : Nat → Nat → ℚ := fun i j =>
  if i = 3 ∧ (j = 4 ∨ j = 7) then 1 else if i = 7 ∧ (j = 4 ∨ j = 7) then 1
  else if i ≠ 3 ∧ i ≠ 7 ∧ ([0, 1, 5, 4, 2, 3, 6, 7].getD i 0) = j then 1 else 0

theorem isLast_of (R : Nat → Nat → ℚ) (cols : List Nat) (lo hi r : Nat)
    (h : (decide (lo ≤ r) && decide (r < hi) && present R cols r &&
      (List.range hi).all fun i => decide (i ≤ r) || !present R cols i) = true) :
    IsLast R cols lo hi r := by
  simp only [Bool.and_eq_true, decide_eq_true_eq, List.all_eq_true, List.mem_range,
    Bool.or_eq_true, Bool.not_eq_true'] at h
  obtain ⟨⟨⟨h1, h2⟩, h3⟩, h4⟩ := h
  refine Or.inl ⟨h1, h2, (present_iff _ _ _).1 h3, fun i hi hlt hs => ?_⟩
  rcases h4 i hlt with h | h
  · omega
  · rw [(present_iff _ _ _).2 hs] at h; cases h

example : IsLast sorted8 [0, 2] 0 3 0 ∧ IsLast sorted8 [5, 7] 0 3 2 ∧ IsLast sorted8 [0, 2] 3 8 4 ∧
    IsLast sorted8 [5, 7] 3 8 7 ∧ AreRows sorted8 [4, 6] 8 [3, 6] := by
  refine ⟨isLast_of _ _ _ _ _ (by decide +kernel), isLast_of _ _ _ _ _ (by decide +kernel),
    isLast_of _ _ _ _ _ (by decide +kernel), isLast_of _ _ _ _ _ (by decide +kernel), ?_⟩
  have h := filter_rows sorted8 [4, 6] 8
  have e : (physicalRows 8).filter (present sorted8 [4, 6]) = [3, 6] := by decide +kernel
  rw [e] at h
  exact h

example : AreRows mixed8 [4, 6] 8 [3, 6, 7] := by
  have h := filter_rows mixed8 [4, 6] 8
  have e : (physicalRows 8).filter (present mixed8 [4, 6]) = [3, 6, 7] := by decide +kernel
  rw [e] at h
  exact h

/-- the hypotheses of `C134_n2hdm` and `C134_cxsm`: bosons of 95, 125 and 300 GeV -/
def unit9 : Nat → Nat → ℚ := fun i j => if i = j then 1 else 0

example : AreRows unit9 [6, 7, 8] 9 [6, 7, 8] ∧ AreRows sorted8 [4, 5, 6, 7] 8 [3, 6, 7] ∧
    ((124 : ℚ) < 95 ∧ (95 : ℚ) < 126 ∨ (124 : ℚ) < 125 ∧ (125 : ℚ) < 126 ∨
      (124 : ℚ) < 300 ∧ (300 : ℚ) < 126) := by
  have h := filter_rows unit9 [6, 7, 8] 9
  have e : (physicalRows 9).filter (present unit9 [6, 7, 8]) = [6, 7, 8] := by decide +kernel
  rw [e] at h
  have h' := filter_rows sorted8 [4, 5, 6, 7] 8
  have e' : (physicalRows 8).filter (present sorted8 [4, 5, 6, 7]) = [3, 6, 7] := by decide +kernel
  rw [e'] at h'
  exact ⟨h, h', by norm_num⟩

/-- the hypotheses of `C134_dark` -/
example : (∀ k : Nat, k < 6 → ∀ i : Nat, i < 9 → (Shows unit9 [k] i ↔ i = k)) ∧
    (∀ i : Nat, i < 9 → (Shows unit9 [6, 7, 8] i ↔ i = 6 ∨ i = 7 ∨ i = 8)) := by
  have h1 : ∀ k < 6, ∀ i < 9, (present unit9 [k] i = true ↔ i = k) := by decide +kernel
  have h2 : ∀ i < 9, (present unit9 [6, 7, 8] i = true ↔ i = 6 ∨ i = 7 ∨ i = 8) := by
    decide +kernel
  simp only [← present_iff]
  exact ⟨h1, h2⟩

end Verif.Models.Report
