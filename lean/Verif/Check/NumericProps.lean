import Verif.Check.Numeric
import Verif.Check.Lemmas
import Mathlib.Algebra.Order.BigOperators.Group.List
import Mathlib.Data.List.GetD
import Mathlib.Tactic.Linarith
import Mathlib.Tactic.NormNum
import Mathlib.Tactic.FieldSimp
import Mathlib.Tactic.Positivity
import Mathlib.Tactic.Ring

/-!
# What the numerical checks accept
-/

set_option linter.unusedSectionVars false
set_option linter.unusedSimpArgs false

namespace Verif.Check

open Outcome Spec

variable {K : Type} [Field K] [LinearOrder K] [IsStrictOrderedRing K]

/-! ### Sums -/

theorem foldl_plus (l : List K) (a : K) :
    (l.map Flt.fin).foldl plus (.fin a) = Flt.fin (a + l.sum) := by
  induction l generalizing a with
  | nil => simp
  | cons x xs ih => simp [plus, ih, add_assoc]

theorem total_fin (l : List K) : total (l.map Flt.fin) = .fin l.sum := by
  rw [total, foldl_plus, zero_add]

theorem foldl_nan (l : List (Flt K)) : l.foldl plus .nan = .nan := by
  induction l with
  | nil => rfl
  | cons x xs ih => simp [plus, ih]

theorem total_nan {l : List (Flt K)} (h : .nan ∈ l) : total l = .nan := by
  suffices ∀ a, l.foldl plus a = .nan from this _
  induction l with
  | nil => simp at h
  | cons x xs ih =>
    intro a
    rw [List.foldl_cons]
    rcases List.mem_cons.1 h with rfl | h
    · have : plus a (.nan : Flt K) = .nan := by cases a <;> rfl
      rw [this, foldl_nan]
    · exact ih h _

theorem within_fin (b x : K) : within b (.fin x) = verdict (x ≤ b) := by
  rw [within]
  by_cases h : x ≤ b
  · rw [verdict_true h, if_neg]
    simpa using h
  · rw [verdict_false h, if_pos]
    simpa using h

theorem within_nan (b : K) : within b .nan = .pass := rfl

theorem small_pos : (0 : K) < small := by unfold small; positivity

theorem zipWith_fin (f : Flt K → K → Flt K) (g : K → K → K)
    (h : ∀ c m, f (.fin c) m = .fin (g c m)) (l m : List K) :
    List.zipWith f (l.map Flt.fin) m = (List.zipWith g l m).map Flt.fin := by
  rw [List.zipWith_map_left, List.map_zipWith]
  exact congrArg (fun F => List.zipWith F l m) (funext fun c => funext fun x => h c x)

theorem zipWith_nan (f : Flt K → K → Flt K) (h : ∀ m, f .nan m = .nan) {l : List (Flt K)} {m : List K}
    (hn : .nan ∈ l) (hl : l.length ≤ m.length) : .nan ∈ List.zipWith f l m := by
  obtain ⟨i, hi, e⟩ := List.getElem_of_mem hn
  have hi' : i < (List.zipWith f l m).length := by rw [List.length_zipWith]; omega
  have : (List.zipWith f l m)[i] = .nan := by rw [List.getElem_zipWith, e, h]
  exact this ▸ List.getElem_mem hi'

theorem sorted_unique {l m : List K} (hm : m.Pairwise (· ≤ ·)) (hp : m.Perm l) : sorted l = m := by
  have h1 : (sorted l).Pairwise (· ≤ ·) := List.pairwise_insertionSort _ _
  have h2 : (sorted l).Perm m := (List.perm_insertionSort _ _).trans hp.symm
  exact List.Perm.eq_of_pairwise (fun a b _ _ h h' => le_antisymm h h') h1 hm h2

/-! ### Gauge bosons -/

/-- The relative deviation from an expected squared mass, or the absolute one if it is zero. -/
def Spec.deviation (c m : K) : K := if m = 0 then |c| else |c - m| / m

/-- **Gauge bosons.**  The check passes exactly if there are four masses and the sum of their relative
deviations from `0, m_W², m_W², m_Z²` in ascending order does not exceed `1e-5`. -/
theorem C106_gauge (mW mZ : K) (m l : List K) (hs : m.Pairwise (· ≤ ·))
    (hm : m.Perm [0, mW ^ 2, mW ^ 2, mZ ^ 2]) : gaugeBosonMasses mW mZ (l.map Flt.fin) =
      verdict (l.length = 4 ∧ (List.zipWith Spec.deviation l m).sum ≤ 1 / 10 ^ 5) := by
  rw [gaugeBosonMasses]
  simp only [sorted_unique hs hm, List.length_map]
  have h4 : m.length = 4 := hm.length_eq
  rw [h4]
  by_cases hl : l.length = 4
  · rw [if_neg (by simpa using hl), zipWith_fin _ Spec.deviation, total_fin, within_fin]
    · exact verdict_congr ⟨fun h => ⟨hl, h⟩, fun h => h.2⟩
    · intro c x
      unfold Spec.deviation
      by_cases hx : x = 0
      · rw [if_pos hx, if_pos hx]; rfl
      · rw [if_neg hx, if_neg hx]
        simp [absolute, minus, quotient, Flt.map, hx]
  · rw [if_pos (by simpa using hl), verdict_false fun h => hl h.1]

theorem le_sum_of_mem {l : List K} (h0 : ∀ x ∈ l, 0 ≤ x) {x : K} (hx : x ∈ l) : x ≤ l.sum :=
  List.single_le_sum h0 x hx

/-- So if it passes then every mass is close to the expected one. -/
theorem C106_gauge_close (mW mZ : K) (m l : List K) (hs : m.Pairwise (· ≤ ·))
    (hm : m.Perm [0, mW ^ 2, mW ^ 2, mZ ^ 2])
    (h : gaugeBosonMasses mW mZ (l.map Flt.fin) = .pass) (i : Nat) (hi : i < 4) :
    ∃ (hl : i < l.length) (hm : i < m.length),
      (m[i] = 0 → |l[i]| ≤ 1 / 10 ^ 5) ∧ |l[i] - m[i]| ≤ max 1 m[i] * (1 / 10 ^ 5) := by
  rw [C106_gauge mW mZ m l hs hm, verdict_pass] at h
  obtain ⟨hl, h⟩ := h
  have hml : m.length = 4 := hm.length_eq
  have hpos : ∀ x ∈ m, 0 ≤ x := fun x hx => by
    have := hm.mem_iff.1 hx
    simp only [List.mem_cons, List.not_mem_nil, or_false] at this
    rcases this with rfl | rfl | rfl | rfl <;> positivity
  refine ⟨by omega, by omega, ?_⟩
  have hz : i < (List.zipWith Spec.deviation l m).length := by rw [List.length_zipWith]; omega
  have hle : Spec.deviation l[i] m[i] ≤ 1 / 10 ^ 5 := by
    refine le_trans ?_ h
    rw [← List.getElem_zipWith (f := Spec.deviation) (h := hz)]
    refine le_sum_of_mem (fun x hx => ?_) (List.getElem_mem hz)
    obtain ⟨j, hj, rfl⟩ := List.getElem_of_mem hx
    rw [List.getElem_zipWith]
    unfold Spec.deviation
    split_ifs
    · exact abs_nonneg _
    · exact div_nonneg (abs_nonneg _) (hpos _ (List.getElem_mem _))
  unfold Spec.deviation at hle
  have hp := hpos m[i] (List.getElem_mem _)
  split_ifs at hle with hz
  · refine ⟨fun _ => hle, ?_⟩
    rw [hz, sub_zero, max_eq_left zero_le_one, one_mul]
    exact hle
  · refine ⟨fun h => absurd h hz, ?_⟩
    have hp' : 0 < m[i] := lt_of_le_of_ne hp (Ne.symm hz)
    rw [div_le_iff₀ hp'] at hle
    refine hle.trans ?_
    rw [mul_comm]
    exact mul_le_mul_of_nonneg_right (le_max_right _ _) (by positivity)

/-- Masses that are not numbers are accepted. -/
theorem C106_gauge_fails (mW mZ : K) (l : List (Flt K)) (hl : l.length = 4) (h : .nan ∈ l) :
    gaugeBosonMasses mW mZ l = .pass := by
  rw [gaugeBosonMasses]
  have h4 : (sorted [0, mW ^ 2, mW ^ 2, mZ ^ 2]).length = 4 := by
    rw [sorted, List.length_insertionSort]; rfl
  simp only [h4, hl, ne_eq, not_true_eq_false, if_false]
  rw [total_nan, within_nan]
  refine zipWith_nan _ (fun m => ?_) h (by omega)
  by_cases hm : m = 0
  · rw [if_pos hm]; rfl
  · rw [if_neg hm]; rfl

/-! ### Fermions -/

theorem abs_minus (c m : K) : absolute (minus (.fin c) (.fin m)) = .fin |c - m| := rfl

/-- **Leptons.**  The check passes exactly if the sum of the deviations does not exceed `1e-5`; missing and
superfluous masses count as deviations from zero. -/
theorem C106_leptons (m l : List K) : leptonMasses m (l.map Flt.fin) =
    verdict (((List.range (max l.length m.length)).map fun i => |l.getD i 0 - m.getD i 0|).sum ≤
      1 / 10 ^ 5) := by
  rw [leptonMasses, zipWith_fin _ (fun c m => |c - m|) (fun c m => rfl)]
  have e2 : (((l.map Flt.fin).drop m.length).map absolute : List (Flt K)) =
      ((l.drop m.length).map fun x => |x|).map Flt.fin := by
    rw [← List.map_drop, List.map_map, List.map_map]; rfl
  have e3 : ((m.drop (l.map Flt.fin).length).map fun x => absolute (.fin x) : List (Flt K)) =
      ((m.drop l.length).map fun x => |x|).map Flt.fin := by
    rw [List.length_map, List.map_map]; rfl
  rw [e2, e3, ← List.map_append, ← List.map_append, total_fin, within_fin]
  refine verdict_congr ?_
  rw [show (1 / 10 ^ 5 : K) = small from rfl]
  suffices h : (List.zipWith (fun c m => |c - m|) l m ++ (l.drop m.length).map (fun x => |x|) ++
      (m.drop l.length).map fun x => |x|) =
      (List.range (max l.length m.length)).map fun i => |l.getD i 0 - m.getD i 0| by rw [h]
  clear e2 e3
  induction l generalizing m with
  | nil =>
    simp only [List.zipWith_nil_left, List.drop_nil, List.map_nil, List.nil_append, List.length_nil,
      List.drop_zero, Nat.zero_max, List.getD_nil, zero_sub, abs_neg]
    refine List.ext_getElem (by simp) fun i h1 h2 => ?_
    simp only [List.length_map] at h1
    simp [h1]
  | cons x xs ih =>
    cases m with
    | nil =>
      refine List.ext_getElem (by simp) fun i h1 h2 => ?_
      simp only [List.length_append, List.length_map, List.length_drop] at h1
      have : i < (x :: xs).length := by simpa using h1
      simp only [List.zipWith_nil_right, List.nil_append, List.drop_nil, List.map_nil, List.append_nil,
        List.length_nil, List.drop_zero, List.getElem_map, List.getElem_range, List.getD_nil, sub_zero,
        List.getD_eq_getElem _ _ this]
    | cons y ys =>
      have := ih ys
      simp only [List.zipWith_cons_cons, List.length_cons, List.drop_succ_cons, List.cons_append]
      rw [this, show max (xs.length + 1) (ys.length + 1) = max xs.length ys.length + 1 by omega,
        List.range_succ_eq_map, List.map_cons, List.map_map]
      rfl

/-- **Quarks.**  Only the calculated masses are compared: the check passes exactly if the sum of their
deviations does not exceed `1e-5`, and throws if there are more of them than expected. -/
theorem C106_quarks_partial (m l : List K) : quarkMasses m (l.map Flt.fin) =
    if l.length ≤ m.length then
      ok (verdict (((List.range l.length).map fun i => |l.getD i 0 - m.getD i 0|).sum ≤ 1 / 10 ^ 5))
    else err .outOfRange := by
  rw [quarkMasses, List.length_map]
  by_cases h : l.length ≤ m.length
  · rw [if_neg (by omega), if_pos h, zipWith_fin _ (fun c m => |c - m|) (fun c m => rfl), total_fin,
      within_fin]
    refine congrArg ok (verdict_congr ?_)
    suffices h : List.zipWith (fun c m => |c - m|) l m =
        (List.range l.length).map fun i => |l.getD i 0 - m.getD i 0| by rw [h]; rfl
    refine List.ext_getElem (by simp; omega) fun i h1 h2 => ?_
    have hi : i < l.length := by simpa using h2
    simp [List.getElem?_eq_getElem hi, List.getElem?_eq_getElem (show i < m.length by omega)]
  · rw [if_pos (by omega), if_neg h]

theorem length_sorted (l : List K) : (sorted l).length = l.length := by
  rw [sorted, List.length_insertionSort]

/-- The results of `CheckFermionicMasses`: a model without leptons has the lepton masses among its quarks. -/
theorem C106_fermions (c : FermionConstants K) (nLepton : Nat) (leptons quarks : List K)
    (lm qm : List K) (hl : lm.Pairwise (· ≤ ·)) (hq : qm.Pairwise (· ≤ ·))
    (pl : lm.Perm [0, 0, 0, c.electron ^ 2, c.electron ^ 2, c.mu ^ 2, c.mu ^ 2, c.tau ^ 2, c.tau ^ 2])
    (pq : qm.Perm ([c.up ^ 2, c.up ^ 2, c.charm ^ 2, c.charm ^ 2, c.top ^ 2, c.top ^ 2, c.down ^ 2,
      c.down ^ 2, c.strange ^ 2, c.strange ^ 2, c.bottom ^ 2, c.bottom ^ 2] ++
      if nLepton = 0 then lm else []))
    (hn : quarks.length ≤ qm.length) :
    fermionicMasses c nLepton (leptons.map Flt.fin) (quarks.map Flt.fin) =
      ok (verdict (nLepton = 0 ∨ ((List.range (max leptons.length lm.length)).map fun i =>
            |leptons.getD i 0 - lm.getD i 0|).sum ≤ 1 / 10 ^ 5),
        verdict (((List.range quarks.length).map fun i =>
            |quarks.getD i 0 - qm.getD i 0|).sum ≤ 1 / 10 ^ 5)) := by
  have el : sorted (leptonInput c) = lm := sorted_unique hl (by simpa [leptonInput] using pl)
  have eq : sorted (if nLepton = 0 then quarkInput c ++ leptonInput c else quarkInput c) = qm := by
    refine sorted_unique hq (pq.trans ?_)
    by_cases h : nLepton = 0
    · rw [if_pos h, if_pos h]
      refine List.Perm.append ?_ ?_
      · simp [quarkInput]
      · simpa [leptonInput] using pl
    · rw [if_neg h, if_neg h]
      simp [quarkInput]
  rw [fermionicMasses]
  simp only [el, eq]
  rw [C106_quarks_partial, if_pos hn, bind_ok]
  refine congrArg ok (Prod.ext ?_ rfl)
  by_cases h : nLepton = 0
  · simp only [h, ne_eq, not_true_eq_false, if_false]
    rw [verdict_true (Or.inl trivial)]
  · simp only [h, ne_eq, not_false_eq_true, if_true]
    rw [C106_leptons]
    exact verdict_congr ⟨Or.inr, fun H => H.resolve_left id⟩

/-- A model without quarks passes, and one with more quarks than the standard model throws. -/
theorem C106_quarks_fails (c : FermionConstants K) (nLepton : Nat) (h : nLepton ≠ 0)
    (leptons : List (Flt K)) :
    (∃ r, fermionicMasses c nLepton leptons [] = ok (r, .pass)) ∧
      ∀ quarks : List (Flt K), 12 < quarks.length →
        fermionicMasses c nLepton leptons quarks = err .outOfRange := by
  have hz : within small (.fin (0 : K)) = .pass := by
    rw [within_fin, verdict_true small_pos.le]
  have hlen : (sorted (quarkInput c)).length = 12 := by rw [length_sorted]; rfl
  constructor
  · exact ⟨_, by simp only [fermionicMasses, if_neg h, quarkMasses]; simp [total, hz]; rfl⟩
  · intro quarks hq
    simp only [fermionicMasses, if_neg h, quarkMasses, hlen, if_pos hq]
    rfl

/-- The bound is absolute, so that light fermions are not tested: with the constants of the program a model
with a massless electron passes. -/
theorem C106_light_fails : leptonMasses (sorted (leptonInput (K := ℚ)
    ⟨0.510998928 / 1000, 0.1056583715, 1.77682, 0, 0, 0, 0, 0, 0⟩))
    ((sorted (leptonInput (K := ℚ) ⟨0, 0.1056583715, 1.77682, 0, 0, 0, 0, 0, 0⟩)).map Flt.fin) = .pass := by
  decide +kernel

/-- Fermion masses that are not numbers are accepted. -/
theorem C106_fermions_nan_fails (m : List K) (l : List (Flt K)) (h : .nan ∈ l)
    (hl : l.length ≤ m.length) : leptonMasses m l = .pass ∧ quarkMasses m l = ok .pass := by
  have hz : (.nan : Flt K) ∈ List.zipWith (fun c m => absolute (minus c (.fin m))) l m :=
    zipWith_nan _ (fun m => rfl) h hl
  constructor
  · rw [leptonMasses, total_nan (by simp [hz]), within_nan]
  · rw [quarkMasses, if_neg (by omega), total_nan hz, within_nan]

/-! ### Minimum and tadpoles -/

theorem mapM_range {n : Nat} (f : Nat → Outcome (Flt K)) (g : Nat → Flt K)
    (h : ∀ i < n, f i = ok (g i)) : (List.range n).mapM f = ok ((List.range n).map g) :=
  mapM_ok fun i hi => h i (List.mem_range.1 hi)

/-- **Tree-level minimum.**  The check passes exactly if the absolute values of the components differ from
those of the given vacuum by not more than `0.5` in total. -/
theorem C106_minimum_partial (nVEV : Nat) (v c : List K) (hv : nVEV ≤ v.length)
    (hc : nVEV ≤ c.length) : treeLevelMin nVEV (v.map Flt.fin) (c.map Flt.fin) =
      ok (verdict (((List.range nVEV).map fun i => |(|c.getD i 0|) - (|v.getD i 0|)|).sum ≤ 1 / 2)) := by
  rw [treeLevelMin, mapM_range _ fun i => Flt.fin |(|c.getD i 0|) - (|v.getD i 0|)|]
  · rw [bind_ok, show ((List.range nVEV).map fun i => Flt.fin |(|c.getD i 0|) - (|v.getD i 0|)|) =
      ((List.range nVEV).map fun i => |(|c.getD i 0|) - (|v.getD i 0|)|).map Flt.fin by
        rw [List.map_map]; rfl, total_fin, within_fin]
  · intro i hi
    have h1 : i < c.length := by omega
    have h2 : i < v.length := by omega
    rw [at'_of_lt (by simpa using h1), at'_of_lt (by simpa using h2), bind_ok, bind_ok]
    simp [absolute, minus, Flt.map, List.getElem?_eq_getElem h1, List.getElem?_eq_getElem h2]

/-- Therefore it does not see the signs: a minimum in which some components have the opposite sign passes,
although the potential may be different there.  It throws if the minimiser returns too few components. -/
theorem C106_minimum_fails :
    (∀ (nVEV : Nat) (v : List K) (s : Nat → Bool), nVEV ≤ v.length →
      treeLevelMin nVEV (v.map Flt.fin)
        ((v.mapIdx fun i x => if s i then -x else x).map Flt.fin) = ok .pass) ∧
    ∀ (nVEV : Nat) (v c : List (Flt K)), c.length < nVEV →
      treeLevelMin nVEV v c = err .outOfRange := by
  constructor
  · intro nVEV v s hv
    rw [C106_minimum_partial nVEV v _ hv (by simpa using hv), verdict_true]
    have hz : ((List.range nVEV).map fun i =>
        |(|(v.mapIdx fun i x => if s i then -x else x).getD i 0|) - (|v.getD i 0|)|) =
        (List.range nVEV).map fun _ => (0 : K) := by
      refine List.map_congr_left fun i hi => ?_
      have h2 : i < v.length := by have := List.mem_range.1 hi; omega
      rw [List.getD_eq_getElem v _ h2, List.getD_eq_getElem _ _ (by simpa using h2),
        List.getElem_mapIdx]
      split_ifs <;> simp
    rw [hz]
    simp
  · intro nVEV v c hc
    rw [treeLevelMin]
    have : ∀ (l : List Nat), (∃ i ∈ l, c.length ≤ i) → (l.mapM fun i => do
        let x ← at' c i
        let y ← at' v i
        ok (absolute (minus (absolute x) (absolute y)))) = err .outOfRange := by
      intro l
      induction l with
      | nil => simp
      | cons x xs ih =>
        rintro ⟨i, hi, hle⟩
        rw [List.mapM_cons]
        by_cases hx : c.length ≤ x
        · rw [at'_of_ge hx]; rfl
        · rw [at'_of_lt (by omega), bind_ok]
          have hxs : ∃ i ∈ xs, c.length ≤ i := by
            rcases List.mem_cons.1 hi with rfl | h
            · exact absurd hle hx
            · exact ⟨i, h, hle⟩
          rw [ih hxs]
          by_cases hy : v.length ≤ x
          · rw [at'_of_ge hy]; rfl
          · rw [at'_of_lt (by omega)]; rfl
    rw [this _ ⟨c.length, List.mem_range.2 hc, le_refl _⟩]
    rfl

/-- **Tadpole relations.**  The check passes exactly if the absolute values of the first derivatives of the
potential do not exceed `1e-5` in total. -/
theorem C106_tadpoles (g : List K) : tadpoleRelations (g.map Flt.fin) =
    verdict ((g.map fun x => |x|).sum ≤ 1 / 10 ^ 5) := by
  rw [tadpoleRelations, List.map_map,
    show (g.map (absolute ∘ Flt.fin)) = (g.map fun x => |x|).map Flt.fin by rw [List.map_map]; rfl,
    total_fin, within_fin]
  rfl

/-- Derivatives that are not numbers are accepted. -/
theorem C106_tadpoles_fails (g : List (Flt K)) (h : .nan ∈ g) : tadpoleRelations g = .pass := by
  rw [tadpoleRelations, total_nan, within_nan]
  exact List.mem_map.2 ⟨_, h, rfl⟩

/-! ### Masses at next-to-leading order -/

/-- Squared masses below `1e-5` count as zero. -/
def Spec.massless (x : K) : K := if |x| < 1 / 10 ^ 5 then 0 else x

/-- The relative difference of the absolute value of the next-to-leading order mass and the tree-level
mass. -/
def Spec.shift (t m : K) : K := |(|m|) - t| / max |m| |t|

/-- **Masses at next-to-leading order.**  The check passes exactly if the sum of the relative differences
does not exceed `0.5`. -/
theorem C106_nlo_partial (t m : List K) : nloMasses (t.map Flt.fin) (m.map Flt.fin) =
    verdict ((List.zipWith (fun a b => Spec.shift (Spec.massless a) (Spec.massless b)) t m).sum ≤
      1 / 2) := by
  rw [nloMasses, List.zipWith_map, show (List.zipWith (fun a b => nloTerm (zeroMass (Flt.fin a))
    (zeroMass (Flt.fin b))) t m) = (List.zipWith (fun a b => Spec.shift (Spec.massless a)
      (Spec.massless b)) t m).map Flt.fin from ?_, total_fin, within_fin]
  rw [List.map_zipWith]
  refine congrArg (fun F => List.zipWith F t m) (funext fun a => funext fun b => ?_)
  have hz : ∀ x : K, zeroMass (.fin x) = .fin (Spec.massless x) := fun x => by
    unfold zeroMass Spec.massless
    by_cases h : |x| < 1 / 10 ^ 5
    · rw [if_pos h, if_pos (by simpa [absolute, Flt.map, small] using h)]
    · rw [if_neg h, if_neg (by simpa [absolute, Flt.map, small] using h)]
  rw [hz, hz]
  generalize Spec.massless a = a
  generalize Spec.massless b = b
  have hmax : maximum (absolute (.fin b)) (absolute (.fin a)) = .fin (max |b| |a|) := by
    unfold maximum absolute
    by_cases h : |b| < |a|
    · rw [if_pos (by simpa [Flt.map] using h), max_eq_right h.le]; rfl
    · rw [if_neg (by simpa [Flt.map] using h), max_eq_left (not_lt.1 h)]; rfl
  unfold nloTerm Spec.shift
  simp only [hmax]
  by_cases h : max |b| |a| = 0
  · rw [if_neg (by simpa using h), h, div_zero]
  · rw [if_pos (by simpa using h)]
    simp [absolute, minus, quotient, Flt.map, h]

/-- It does not see the sign of the squared masses at next-to-leading order: if they are the negatives of
those at tree level, so that the vacuum is a maximum, then it passes.  Masses that are not numbers are
accepted. -/
theorem C106_nlo_fails :
    (∀ t : List K, (∀ x ∈ t, 0 ≤ x) →
      nloMasses (t.map Flt.fin) ((t.map fun x => -x).map Flt.fin) = .pass) ∧
    ∀ t m : List (Flt K), t.length = m.length → .nan ∈ m → nloMasses t m = .pass := by
  constructor
  · intro t ht
    rw [C106_nlo_partial, verdict_true]
    have : ∀ l : List K, (∀ x ∈ l, 0 ≤ x) → (List.zipWith (fun a b => Spec.shift (Spec.massless a)
        (Spec.massless b)) l (l.map fun x => -x)).sum = 0 := by
      intro l
      induction l with
      | nil => simp
      | cons x xs ih =>
        intro hx
        have h0 : 0 ≤ x := hx x (by simp)
        have e : Spec.shift (Spec.massless x) (Spec.massless (-x)) = 0 := by
          unfold Spec.shift Spec.massless
          rw [abs_neg]
          split_ifs
          · simp
          · simp [abs_of_nonneg h0]
        simp [e, ih fun y hy => hx y (by simp [hy])]
    rw [this t ht]
    positivity
  · intro t m hl h
    rw [nloMasses, total_nan, within_nan]
    obtain ⟨i, hi, e⟩ := List.getElem_of_mem h
    have hi' : i < (List.zipWith (fun t m => nloTerm (zeroMass t) (zeroMass m)) t m).length := by
      rw [List.length_zipWith]; omega
    have : (List.zipWith (fun t m => nloTerm (zeroMass t) (zeroMass m)) t m)[i] = .nan := by
      rw [List.getElem_zipWith, e]
      have hz : zeroMass (.nan : Flt K) = .nan := rfl
      rw [hz]
      generalize zeroMass t[i] = a
      unfold nloTerm
      have hm : maximum (absolute (.nan : Flt K)) (absolute a) = .nan := rfl
      simp only [hm]
      rfl
    exact this ▸ List.getElem_mem hi'

/-! ### Simplified potentials -/

/-- The relative difference of two values that are not both zero. -/
def Spec.difference (a b : K) : K := |a - b| / (|a| + |b|)

theorem relative_fin (a b : K) (h : ¬ (a = 0 ∧ b = 0)) :
    relative (.fin a) (.fin b) = .fin (Spec.difference a b) := by
  have : |a| + |b| ≠ 0 := fun e => h ⟨by
    have := abs_nonneg a; have := abs_nonneg b
    exact abs_eq_zero.1 (by linarith), by
    have := abs_nonneg a; have := abs_nonneg b
    exact abs_eq_zero.1 (by linarith)⟩
  simp [relative, absolute, minus, plus, quotient, Flt.map, this, Spec.difference]

theorem relative_map (l : List (K × K)) (h : ∀ p ∈ l, ¬ (p.1 = 0 ∧ p.2 = 0)) :
    (l.map fun p => (Flt.fin p.1, Flt.fin p.2)).map (fun p => relative p.1 p.2) =
      (l.map fun p => Spec.difference p.1 p.2).map Flt.fin := by
  rw [List.map_map, List.map_map]
  exact List.map_congr_left fun p hp => relative_fin _ _ (h p hp)

/-- **Simplified potentials.**  If the values at the points do not vanish, then the check of the tree-level
potential passes exactly if the relative differences do not exceed `1e-5` in total, and that of the counterterm
potential if they do not exceed `1`. -/
theorem C106_simplified_partial (l : List (K × K)) (h : ∀ p ∈ l, ¬ (p.1 = 0 ∧ p.2 = 0)) :
    treeSimplified (l.map fun p => (Flt.fin p.1, Flt.fin p.2)) =
        verdict ((l.map fun p => Spec.difference p.1 p.2).sum ≤ 1 / 10 ^ 5) ∧
      counterSimplified (l.map fun p => (Flt.fin p.1, Flt.fin p.2)) =
        verdict ((l.map fun p => Spec.difference p.1 p.2).sum ≤ 1) := by
  constructor
  · rw [treeSimplified, relative_map l h, total_fin, within_fin]; rfl
  · rw [counterSimplified, relative_map l h, total_fin, within_fin]

theorem relative_self (a : K) : relative (.fin a) (.fin a) = .fin 0 ∨
    relative (.fin a) (.fin a) = .nan := by
  by_cases h : a = 0
  · right; simp [relative, absolute, minus, plus, quotient, Flt.map, h]
  · left
    rw [relative_fin _ _ fun H => h H.1]
    simp [Spec.difference]

/-- Equal potentials always pass. -/
theorem C106_simplified_equal (l : List K) :
    treeSimplified (l.map fun a => (Flt.fin a, Flt.fin a)) = .pass ∧
      counterSimplified (l.map fun a => (Flt.fin a, Flt.fin a)) = .pass := by
  have key : total ((l.map fun a => (Flt.fin a, Flt.fin a)).map fun p => relative p.1 p.2) = .fin 0 ∨
      total ((l.map fun a => (Flt.fin a, Flt.fin a)).map fun p => relative p.1 p.2) = .nan := by
    by_cases h : .nan ∈ (l.map fun a => (Flt.fin a, Flt.fin a)).map fun p => relative p.1 p.2
    · exact Or.inr (total_nan h)
    · left
      rw [List.map_map] at h ⊢
      have e : l.map ((fun p : Flt K × Flt K => relative p.1 p.2) ∘ fun a => (Flt.fin a, Flt.fin a)) =
          (l.map fun _ => (0 : K)).map Flt.fin := by
        rw [List.map_map]
        refine List.map_congr_left fun a ha => ?_
        rcases relative_self a with h' | h'
        · exact h'
        · exact absurd (List.mem_map.2 ⟨a, ha, h'⟩) h
      rw [e, total_fin]
      simp
  constructor
  · rw [treeSimplified]
    rcases key with h | h <;> rw [h]
    · rw [within_fin, verdict_true small_pos.le]
    · rfl
  · rw [counterSimplified]
    rcases key with h | h <;> rw [h]
    · rw [within_fin, verdict_true zero_le_one]
    · rfl

/-- Wrong potentials pass as well: if both values vanish at one of the points then the sum is not a number and
any values at the other points are accepted. -/
theorem C106_simplified_fails (l : List (Flt K × Flt K)) (h : (.fin 0, .fin 0) ∈ l) :
    treeSimplified l = .pass ∧ counterSimplified l = .pass := by
  have : .nan ∈ l.map fun p => relative p.1 p.2 := by
    refine List.mem_map.2 ⟨_, h, ?_⟩
    simp [relative, absolute, minus, plus, quotient, Flt.map]
  rw [treeSimplified, counterSimplified, total_nan this]
  exact ⟨rfl, rfl⟩

/-- And a counterterm potential that is wrong by a factor `r` at all of the ten points passes exactly if
`9/11 ≤ r ≤ 11/9`. -/
theorem C106_factor_fails (l : List K) (hl : l.length = 10) (h : ∀ a ∈ l, a ≠ 0) (r : K) (hr : 0 < r) :
    counterSimplified (l.map fun a => (Flt.fin a, Flt.fin (r * a))) =
      verdict (9 / 11 ≤ r ∧ r ≤ 11 / 9) := by
  have e : (l.map fun a => (Flt.fin a, Flt.fin (r * a))) =
      (l.map fun a => (a, r * a)).map fun p => (Flt.fin p.1, Flt.fin p.2) := by
    rw [List.map_map]; rfl
  rw [e, (C106_simplified_partial _ ?_).2]
  · have e2 : ((l.map fun a => (a, r * a)).map fun p => Spec.difference p.1 p.2) =
        l.map fun _ => |1 - r| / (1 + r) := by
      rw [List.map_map]
      refine List.map_congr_left fun a ha => ?_
      have ha' : |a| ≠ 0 := abs_ne_zero.2 (h a ha)
      have h1 : a - r * a = (1 - r) * a := by ring
      simp only [Function.comp, Spec.difference]
      rw [h1, abs_mul, abs_mul, abs_of_pos hr, show |a| + r * |a| = (1 + r) * |a| by ring,
        mul_div_mul_right _ _ ha']
    rw [e2, List.map_const', List.sum_replicate, hl]
    refine verdict_congr ?_
    have hp : 0 < 1 + r := by linarith
    rw [nsmul_eq_mul, ← mul_div_assoc, div_le_one hp]
    push_cast
    rcases abs_cases (1 - r) with ⟨h1, h2⟩ | ⟨h1, h2⟩
    · rw [h1]
      constructor
      · intro H; exact ⟨by linarith, by linarith⟩
      · intro H; linarith [H.1]
    · rw [h1]
      constructor
      · intro H; exact ⟨by linarith, by linarith⟩
      · intro H; linarith [H.2]
  · intro p hp
    obtain ⟨a, ha, rfl⟩ := List.mem_map.1 hp
    exact fun H => h a ha H.1

/-! ### Counterterm conditions -/

/-- **Renormalisation conditions.**  The checks pass exactly if the gradients (Hesse matrices) of the
Coleman-Weinberg and the counterterm potential cancel up to `1e-5`. -/
theorem C106_conditions_partial {n : Nat} (w c : Fin n → K) (W C : Fin n → Fin n → K) :
    ctFirst (List.ofFn fun i => .fin (w i)) (List.ofFn fun i => .fin (c i)) =
        verdict (∀ i, |w i + c i| ≤ 1 / 10 ^ 5) ∧
      ctSecond (table2 fun i j => .fin (C i j)) (table2 fun i j => .fin (W i j)) =
        verdict (∀ i j, |C i j + W i j| ≤ 1 / 10 ^ 5) := by
  have hzip : ∀ {A B D : Type} {m : Nat} (f : A → B → D) (a : Fin m → A) (b : Fin m → B),
      List.zipWith f (List.ofFn a) (List.ofFn b) = List.ofFn fun i => f (a i) (b i) := by
    intro A B D m f a b
    exact List.ext_getElem (by simp) fun i h1 h2 => by simp
  have hany : ∀ (m : Nat) (x : Fin m → K),
      ((List.ofFn fun i => Flt.fin (x i)).any fun y => Flt.gt (absolute y) (.fin small)) = true ↔
        ¬ ∀ i, |x i| ≤ 1 / 10 ^ 5 := by
    intro m x
    rw [List.any_eq_true]
    push Not
    constructor
    · rintro ⟨y, hy, hg⟩
      obtain ⟨i, rfl⟩ := List.mem_ofFn.1 hy
      exact ⟨i, by simpa [absolute, Flt.map, small] using hg⟩
    · rintro ⟨i, hi⟩
      exact ⟨_, List.mem_ofFn.2 ⟨i, rfl⟩, by simpa [absolute, Flt.map, small] using hi⟩
  constructor
  · rw [ctFirst, hzip]
    have := hany n fun i => w i + c i
    by_cases h : ∀ i, |w i + c i| ≤ 1 / 10 ^ 5
    · rw [verdict_true h, if_neg]
      exact fun H => (this.1 H) h
    · rw [verdict_false h, if_pos]
      exact this.2 h
  · rw [ctSecond, table2, table2, hzip]
    have e : (List.ofFn fun i => List.zipWith plus (List.ofFn fun j => Flt.fin (C i j))
        (List.ofFn fun j => Flt.fin (W i j))) =
        List.ofFn fun i => List.ofFn fun j => Flt.fin (C i j + W i j) :=
      congrArg List.ofFn (funext fun i => hzip _ _ _)
    rw [e]
    by_cases h : ∀ i j, |C i j + W i j| ≤ 1 / 10 ^ 5
    · rw [verdict_true h, if_neg]
      rw [Bool.not_eq_true, List.any_eq_false]
      intro r hr
      obtain ⟨i, rfl⟩ := List.mem_ofFn.1 hr
      exact fun H => (hany n fun j => C i j + W i j).1 H (h i)
    · rw [verdict_false h, if_pos]
      push Not at h
      obtain ⟨i, j, hij⟩ := h
      rw [List.any_eq_true]
      exact ⟨_, List.mem_ofFn.2 ⟨i, rfl⟩, (hany n fun j => C i j + W i j).2
        fun H => absurd (H j) (not_le.2 hij)⟩

/-- Whatever the counterterms are, the conditions are accepted if the derivatives of the Coleman-Weinberg
potential are not numbers. -/
theorem C106_conditions_fails {n : Nat} (c : Fin n → Flt K) (C : Fin n → Fin n → Flt K) :
    ctFirst (List.ofFn fun _ : Fin n => .nan) (List.ofFn c) = .pass ∧
      ctSecond (table2 C) (table2 fun _ _ : Fin n => .nan) = .pass := by
  have hp : ∀ x : Flt K, plus x .nan = .nan := fun x => by cases x <;> rfl
  constructor
  · rw [ctFirst, if_neg]
    rw [Bool.not_eq_true, List.any_eq_false]
    intro x hx
    obtain ⟨i, hi, rfl⟩ := List.getElem_of_mem hx
    simp [plus, absolute, Flt.map]
  · rw [ctSecond, if_neg]
    rw [Bool.not_eq_true, List.any_eq_false]
    intro r hr
    rw [Bool.not_eq_true, List.any_eq_false]
    intro x hx
    obtain ⟨i, hi, rfl⟩ := List.getElem_of_mem hr
    obtain ⟨j, hj, rfl⟩ := List.getElem_of_mem hx
    simp [table2, hp, absolute, Flt.map]

/-- **Identities of the counterterms.** -/
theorem C106_identities (l : List K) : ctIdentities (l.map Flt.fin) =
    verdict (∀ x ∈ l, |x| ≤ 1 / 10 ^ 5) := by
  rw [ctIdentities]
  by_cases h : ∀ x ∈ l, |x| ≤ 1 / 10 ^ 5
  · rw [verdict_true h, if_neg]
    rw [Bool.not_eq_true, List.any_eq_false]
    intro y hy
    obtain ⟨x, hx, rfl⟩ := List.mem_map.1 hy
    simpa [absolute, Flt.map, small] using h x hx
  · rw [verdict_false h, if_pos]
    push Not at h
    obtain ⟨x, hx, hlt⟩ := h
    rw [List.any_eq_true]
    exact ⟨_, List.mem_map.2 ⟨x, hx, rfl⟩, by simpa [absolute, Flt.map, small] using hlt⟩

/-! ### Examples -/

example : gaugeBosonMasses (K := ℚ) 80 91 [.fin 0, .fin 6400, .fin 6400, .fin 8281] = .pass ∧
    gaugeBosonMasses (K := ℚ) 80 91 [.fin 0, .fin 6400, .fin 6401, .fin 8281] = .fail := by
  decide +kernel

example : ([0, 80 ^ 2, 80 ^ 2, 91 ^ 2] : List ℚ).Pairwise (· ≤ ·) := by norm_num

example : nloMasses (K := ℚ) [.fin 0, .fin 15625] [.fin 0, .fin (-15625)] = .pass ∧
    nloMasses (K := ℚ) [.fin 0, .fin 15625] [.fin 0, .fin 5000] = .fail := by decide +kernel

example : treeLevelMin (K := ℚ) 2 [.fin 100, .fin 220] [.fin (-100), .fin 220] = ok .pass ∧
    treeLevelMin (K := ℚ) 2 [.fin 100, .fin 220] [.fin 0, .fin 246] = ok .fail := by decide +kernel

end Verif.Check
