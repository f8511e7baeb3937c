import Verif.Tracer.GeometrySpec
import Mathlib.Analysis.Calculus.Deriv.Mul
import Mathlib.Analysis.Calculus.Deriv.Add
import Mathlib.Analysis.Calculus.Deriv.Pow
import Mathlib.LinearAlgebra.Matrix.DotProduct
import Mathlib.Tactic.Linarith
import Mathlib.Tactic.FieldSimp
import Mathlib.Tactic.FinCases
import Mathlib.Tactic.Positivity

/-!
# C17, C18, C19, C43, C47, C48: helpers of the minimum tracer
-/

namespace Verif.Tracer

set_option linter.unusedSectionVars false

open Spec Outcome

variable {n : Nat} {K : Type} [Field K] [LinearOrder K] [IsStrictOrderedRing K]

/-! ## C17: comparing points -/

theorem count_eq_length {α : Type} (p : α → Bool) (l : List α) (m : Nat) (hm : l.length = m) :
    (l.filter p).length = m ↔ ∀ x ∈ l, p x = true := by
  subst hm
  rw [List.length_filter_eq_length_iff]

/-- C17: vectors of different lengths are rejected. -/
theorem C17_length_mismatch (a b : List K) (f : Bool) (rel zero : K) (h : a.length ≠ b.length) :
    almostSameVec a b f rel zero = err .runtime := by
  rw [almostSameVec, if_pos h]

/-- C17: the comparison with the flag set compares entries including their signs, and without the
flag compares their absolute values. -/
theorem C17_meaning (a b : List K) (f : Bool) (rel zero : K) (h : a.length = b.length) :
    ∃ r, almostSameVec a b f rel zero = ok r ∧
      (r = true ↔ ∀ (i : Nat) (x y : K), a[i]? = some x → b[i]? = some y →
        let x' := if f then x else |x|
        let y' := if f then y else |y|
        (|x'| < zero ∧ |y'| < zero) ∨ |x' - y'| < |x' + y'| / 2 * rel) := by
  rw [almostSameVec, if_neg (by simpa using h)]
  refine ⟨_, rfl, ?_⟩
  rw [decide_eq_true_iff, count_eq_length _ _ _ (by simp [h])]
  have e0 : ∀ x y : K, almostSame x y rel zero = true ↔
      ((|x| < zero ∧ |y| < zero) ∨ |x - y| < |x + y| / 2 * rel) := by
    intro x y
    rw [almostSame]
    split
    · rename_i h; simp [h]
    · rename_i h; simp [h]
  have e : ∀ x y : K, (if f = true then almostSame x y rel zero else almostSame |x| |y| rel zero) = true ↔
      (let x' := if f then x else |x|
        let y' := if f then y else |y|
        (|x'| < zero ∧ |y'| < zero) ∨ |x' - y'| < |x' + y'| / 2 * rel) := by
    intro x y
    cases f
    · simp only [Bool.false_eq_true, if_false]; exact e0 _ _
    · simp only [if_true]; exact e0 _ _
  constructor
  · intro hall i x y hx hy
    have hm : (x, y) ∈ List.zip a b := by
      rw [List.mem_iff_getElem?]
      exact ⟨i, by rw [List.getElem?_zip_eq_some]; exact ⟨hx, hy⟩⟩
    exact (e x y).1 (hall _ hm)
  · rintro hall ⟨x, y⟩ hm
    rw [List.mem_iff_getElem?] at hm
    obtain ⟨i, hi⟩ := hm
    rw [List.getElem?_zip_eq_some] at hi
    exact (e x y).2 (hall i x y hi.1 hi.2)

/-- C17 is false of the code: the flag works the other way round.  Without the flag a point and its
mirror image are the same, with the flag they are different, for every non-zero entry and all
tolerances in their usual range. -/
theorem C17_flag_inverted (x rel zero : K) (hz : 0 < zero) (hx : zero ≤ |x|) (hr : 0 < rel) :
    almostSameVec [x] [-x] false rel zero = ok true ∧
    almostSameVec [x] [-x] true rel zero = ok false := by
  have h0 : 0 < |x| := lt_of_lt_of_le hz hx
  constructor
  · simp only [almostSameVec, almostSame]
    have : ¬ |x| < zero := not_lt.2 hx
    have h2 : (0 : K) < |(|x| + |x|)| / 2 * rel := by
      rw [abs_of_pos (by linarith)]
      have : (|x| + |x|) / 2 = |x| := by ring
      rw [this]; positivity
    simp [this, h2]
  · simp only [almostSameVec, almostSame]
    have : ¬ |x| < zero := not_lt.2 hx
    simp [this]

example : (0 : ℚ) < 1 / 10 ^ 10 ∧ (1 / 10 ^ 10 : ℚ) ≤ |3| ∧ (0 : ℚ) < 1 / 100 := by norm_num

/-- C17: the comparison of numbers is symmetric, accepts equal numbers unless they are exactly at the
edge, and rejects numbers of different sign and relevant size for every tolerance below 2. -/
theorem C17_scalar (a b rel zero : K) (hz : 0 < zero) (hr : 0 < rel) :
    almostSame a b rel zero = almostSame b a rel zero ∧
    almostSame a a rel zero = true ∧
    (rel ≤ 2 → zero ≤ a → b ≤ -zero → almostSame a b rel zero = false) := by
  refine ⟨?_, ?_, ?_⟩
  · simp only [almostSame, abs_sub_comm a b, add_comm a b, and_comm (a := |a| < zero)]
  · simp only [almostSame]
    by_cases h : |a| < zero
    · simp [h]
    · have h0 : a ≠ 0 := by
        intro h0; apply h; rw [h0, abs_zero]; exact hz
      have : 0 < |a + a| := abs_pos.2 (by intro h1; apply h0; linarith)
      have : 0 < |a + a| / 2 * rel := by positivity
      simp [h, this]
  · intro hr2 ha hb
    simp only [almostSame]
    have h1 : ¬ (|a| < zero ∧ |b| < zero) := by
      rintro ⟨h1, _⟩
      rw [abs_of_nonneg (by linarith)] at h1; linarith
    rw [if_neg h1, decide_eq_false_iff_not, not_lt, abs_of_pos (by linarith : 0 < a - b)]
    have h2 : |a + b| ≤ a - b := by rw [abs_le]; constructor <;> linarith
    have h3 : 0 ≤ |a + b| := abs_nonneg _
    nlinarith

/-! ## C18: grids -/

/-- C18: the grid in one direction has `nsteps + 1` points; the `i`-th one is the given point with
`low + i (high - low) / nsteps` in direction `k`. -/
theorem C18_grid (point : List K) (k : Nat) (hk : k < point.length) (low high : K) (nsteps : Nat)
    (hn : 0 < nsteps) :
    ∃ g, create1DimGrid point k low high nsteps = ok g ∧ g.length = nsteps + 1 ∧
      (∀ i ≤ nsteps, g[i]? = some (point.set k (low + i * ((high - low) / nsteps)))) ∧
      g.head? = some (point.set k low) ∧ g.getLast? = some (point.set k high) := by
  have h0 : (nsteps : Int) ≠ 0 := by omega
  have hK : (nsteps : K) ≠ 0 := by exact_mod_cast hn.ne'
  refine ⟨(List.range (nsteps + 1)).map fun i : Nat => point.set k (low + i * ((high - low) / nsteps)),
    ?_, by simp, ?_, ?_, ?_⟩
  · rw [create1DimGrid, if_neg h0]
    have e : ((nsteps : Int) + 1).toNat = nsteps + 1 := by omega
    simp only [e]
    apply mapM_ok
    intro i _
    rw [if_pos (by constructor <;> omega)]
    simp
  · intro i hi
    simp [List.getElem?_range (by omega : i < nsteps + 1)]
  · simp [List.range_succ_eq_map]
  · rw [List.range_succ, List.map_append, List.map_singleton, List.getLast?_append]
    simp only [List.getLast?_singleton, Option.some_or]
    congr 2
    field_simp
    ring

/-- C18: the values in the grid direction increase strictly if `low < high`, decrease strictly if
`high < low`, and the other entries are those of the given point. -/
theorem C18_grid_monotone (point : List K) (k : Nat) (hk : k < point.length) (low high : K)
    (nsteps : Nat) (hn : 0 < nsteps) (g : List (List K))
    (h : create1DimGrid point k low high nsteps = ok g) (i j : Nat) (hij : i < j) (hj : j ≤ nsteps) :
    ∃ p q x y, g[i]? = some p ∧ g[j]? = some q ∧ p[k]? = some x ∧ q[k]? = some y ∧
      (low < high → low ≤ x ∧ x < y ∧ y ≤ high) ∧ (high < low → high ≤ y ∧ y < x ∧ x ≤ low) ∧
      ∀ m, m ≠ k → p[m]? = point[m]? ∧ q[m]? = point[m]? := by
  obtain ⟨g', hg', _, hget, _⟩ := C18_grid point k hk low high nsteps hn
  rw [h] at hg'
  cases hg'
  have hK : (0 : K) < nsteps := by exact_mod_cast hn
  have hijK : (i : K) < j := by exact_mod_cast hij
  have hjK : (j : K) ≤ nsteps := by exact_mod_cast hj
  have hi0 : (0 : K) ≤ i := by positivity
  refine ⟨_, _, low + i * ((high - low) / nsteps), low + j * ((high - low) / nsteps),
    hget i (by omega), hget j hj, by simp [hk], by simp [hk], ?_, ?_, ?_⟩
  · intro hlt
    have hd : 0 < (high - low) / nsteps := div_pos (by linarith) hK
    have e : nsteps * ((high - low) / (nsteps : K)) = high - low := by field_simp
    refine ⟨by nlinarith [mul_nonneg hi0 hd.le], by nlinarith, by nlinarith⟩
  · intro hlt
    have hd : (high - low) / nsteps < 0 := div_neg_of_neg_of_pos (by linarith) hK
    have e : nsteps * ((high - low) / (nsteps : K)) = high - low := by field_simp
    refine ⟨by nlinarith, by nlinarith, by nlinarith [mul_nonpos_of_nonneg_of_nonpos hi0 hd.le]⟩
  · intro m hm
    simp [List.getElem?_set_ne hm.symm]

/-- C18: the remaining cases.  No steps give the point itself; a negative number gives nothing; an
index out of range is an exception. -/
theorem C18_grid_edge (point : List K) (k : Int) (low high : K) :
    create1DimGrid point k low high 0 = ok [point] ∧
    (∀ m < 0, create1DimGrid point k low high m = ok []) ∧
    (∀ m > 0, (k < 0 ∨ point.length ≤ k) → create1DimGrid point k low high m = err .outOfRange) := by
  refine ⟨by simp [create1DimGrid], ?_, ?_⟩
  · intro m hm
    rw [create1DimGrid, if_neg (by omega)]
    have : (m + 1).toNat = 0 := by omega
    simp [this]
  · intro m hm hk
    rw [create1DimGrid, if_neg (by omega)]
    obtain ⟨r, hr⟩ : ∃ r, (m + 1).toNat = r + 1 := ⟨m.toNat, by omega⟩
    simp only [hr, List.range_succ_eq_map, List.mapM_cons]
    rw [if_neg (by omega)]
    rfl

/-- C18: the grid between two points has `npoints + 1` points, starts and ends at the given points, and
its points lie on the connecting line in equal steps. -/
theorem C18_line (a b : Vec n K) (npoints : Nat) (hn : 0 < npoints) :
    (createLine a b npoints).length = npoints + 1 ∧
    (∀ i ≤ npoints, (createLine a b npoints)[i]? =
      some fun d => a d + (i : K) / npoints * (b d - a d)) ∧
    (createLine a b npoints).head? = some a ∧ (createLine a b npoints).getLast? = some b := by
  have hK : (npoints : K) ≠ 0 := by exact_mod_cast hn.ne'
  have e : createLine a b npoints = (List.range (npoints + 1)).map fun i : Nat =>
      (fun d => a d + (i : K) / npoints * (b d - a d) : Vec n K) := by
    rw [createLine, if_pos (by omega), List.range_succ_eq_map, List.map_cons, List.map_map]
    congr 1
    · funext d; simp
    · apply List.map_congr_left
      intro i _
      funext d
      simp only [Pi.add_apply, Pi.smul_apply, Pi.sub_apply, smul_eq_mul, Int.cast_natCast,
        Function.comp]
      push_cast
      field_simp
  rw [e]
  refine ⟨by simp, ?_, ?_, ?_⟩
  · intro i hi
    simp [List.getElem?_range (by omega : i < npoints + 1)]
  · rw [List.range_succ_eq_map, List.map_cons, List.head?_cons]
    congr 1; funext d; simp
  · rw [List.range_succ, List.map_append, List.map_singleton, List.getLast?_append]
    simp only [List.getLast?_singleton, Option.some_or]
    congr 1; funext d
    field_simp
    ring

/-- C18 is false of the code as documented: the result is described as "npoints long", but always has
one more point. -/
theorem C18_line_not_npoints_long (a b : Vec n K) (npoints : Int) (h : 0 ≤ npoints) :
    ((createLine a b npoints).length : Int) = npoints + 1 := by
  rcases h.eq_or_lt with h0 | h0
  · rw [← h0]; simp [createLine]
  · rw [createLine, if_pos h0]; simp; omega

/-! ## C19: warping a path -/

/-- C19: the number of points is kept and, if the end points did not move, the path. -/
theorem C19_unchanged (path : List (Vec n K)) (t f t' f' : Vec n K) :
    (warpPath path t f t' f').length = path.length ∧ warpPath path t f t f = path := by
  refine ⟨by simp [warpPath], ?_⟩
  have : ∀ p : Vec n K, warpPoint t f t f p = p := by
    intro p; funext d
    rw [warpPoint]
    split
    · ring
    · field_simp
      ring
  rw [warpPath, List.map_congr_left (g := id) (fun p _ => this p), List.map_id]

/-- C19: the first point, the old true vacuum, becomes the new one; the last point, the old false
vacuum, becomes the new one provided that in every direction in which the old vacua agree the new ones
do as well. -/
theorem C19_endpoints_partial (mid : List (Vec n K)) (t1 f1 t2 f2 : Vec n K)
    (h : ∀ d, f1 d = t1 d → f2 d = t2 d) :
    ∃ mid', warpPath (t1 :: mid ++ [f1]) t1 f1 t2 f2 = t2 :: mid' ++ [f2] ∧
      mid'.length = mid.length := by
  have ht : warpPoint t1 f1 t2 f2 t1 = t2 := by
    funext d; rw [warpPoint]; split <;> simp
  have hf : warpPoint t1 f1 t2 f2 f1 = f2 := by
    funext d; rw [warpPoint]; split
    · rename_i hd
      rw [hd, h d (by linarith)]; simp
    · field_simp; ring
  exact ⟨mid.map (warpPoint t1 f1 t2 f2), by simp [warpPath, ht, hf], by simp⟩

/-- C19: straight lines stay straight: with equal steps between the vacua before, equal steps after,
in every direction in which the old vacua differ. -/
theorem C19_straight_line (t1 f1 t2 f2 : Vec n K) (s : K) (d : Fin n) (hd : f1 d ≠ t1 d) :
    warpPoint t1 f1 t2 f2 (fun d => t1 d + s * (f1 d - t1 d)) d = t2 d + s * (f2 d - t2 d) := by
  have : f1 d - t1 d ≠ 0 := sub_ne_zero.2 hd
  rw [warpPoint, if_neg this]
  field_simp
  ring

/-- C19 is false in general: if the old vacua agree in a direction in which the new ones do not, the
path is shifted as a whole and misses the new false vacuum. -/
theorem C19_misses_false_vacuum :
    warpPath ([![0, 0], ![1, 0]] : List (Vec 2 ℚ)) ![0, 0] ![1, 0] ![0, 0] ![1, 1] =
      [![0, 0], ![1, 0]] := by
  decide +kernel

example : ∃ t1 f1 t2 f2 : Vec 2 ℚ, (∀ d, f1 d = t1 d → f2 d = t2 d) ∧
    warpPath [t1, ![1, 2], f1] t1 f1 t2 f2 = [![1, 5], ![2, 5], ![3, 5]] :=
  ⟨![0, 2], ![2, 2], ![1, 5], ![3, 5], by decide +kernel, by decide +kernel⟩

/-! ## C43: status of the high-temperature check -/

/-- C43: every outcome of the check has its own status; `getStatusEWSR` is defined for every number and
gives `failure` outside the table. -/
theorem C43_outcomes (out : Int) :
    (getStatusEWSR out = .ewSymRes ↔ out = 3) ∧ (getStatusEWSR out = .ewSymNonRes ↔ out = 2) ∧
    (getStatusEWSR out = .flatRegion ↔ out = 1) ∧ (getStatusEWSR out = .notBFB ↔ out = -1) ∧
    (getStatusEWSR out = .failure ↔ out = 0 ∨ out < -1 ∨ 3 < out) := by
  unfold getStatusEWSR
  split_ifs <;> simp <;> omega

/-- C43: what the outcome says about the potential at high temperature. -/
theorem C43_check {P : Type} (converged : Bool) (ev : K) (stationary : Option P) (ewvev : P → K) :
    let s := getStatusEWSR (ewsrOutcome converged ev stationary ewvev)
    (s = .notBFB ↔ converged = true ∧ ev < 0) ∧
    (s = .flatRegion ↔ converged = true ∧ ev = 0) ∧
    (s = .ewSymRes ↔ converged = true ∧ 0 < ev ∧ ∃ p, stationary = some p ∧ ewvev p ≤ 1 / 2) ∧
    (s = .ewSymNonRes ↔ converged = true ∧ 0 < ev ∧ ∃ p, stationary = some p ∧ 1 / 2 < ewvev p) ∧
    (s = .failure ↔ converged = false ∨ (0 < ev ∧ stationary = none)) := by
  dsimp only
  cases converged
  · simp [ewsrOutcome, getStatusEWSR]
  · rcases lt_trichotomy ev 0 with h | h | h
    · simp [ewsrOutcome, getStatusEWSR, h, h.ne, not_lt.2 h.le]
    · simp [ewsrOutcome, getStatusEWSR, h]
    · cases stationary with
      | none => simp [ewsrOutcome, getStatusEWSR, h, h.ne', not_lt.2 h.le]
      | some p =>
        by_cases hp : ewvev p ≤ 1 / 2
        · have e : ewsrOutcome true ev (some p) ewvev = 3 := by
            simp only [ewsrOutcome, Bool.not_true, Bool.false_eq_true, if_false, if_neg (not_lt.2 h.le),
              if_neg h.ne', if_pos hp]
          have e' : ¬ 1 / 2 < ewvev p := not_lt.2 hp
          rw [e]
          refine ⟨?_, ?_, ?_, ?_, ?_⟩
          · simp [getStatusEWSR, not_lt.2 h.le]
          · simp [getStatusEWSR, h.ne']
          · exact ⟨fun _ => ⟨rfl, h, p, rfl, hp⟩, fun _ => rfl⟩
          · exact ⟨fun hc => by simp [getStatusEWSR] at hc,
              fun ⟨_, _, q, hq, hq'⟩ => absurd (Option.some.inj hq ▸ hq') e'⟩
          · simp [getStatusEWSR]
        · have e : ewsrOutcome true ev (some p) ewvev = 2 := by
            simp only [ewsrOutcome, Bool.not_true, Bool.false_eq_true, if_false, if_neg (not_lt.2 h.le),
              if_neg h.ne', if_neg hp]
          rw [e]
          refine ⟨?_, ?_, ?_, ?_, ?_⟩
          · simp [getStatusEWSR, not_lt.2 h.le]
          · simp [getStatusEWSR, h.ne']
          · exact ⟨fun hc => by simp [getStatusEWSR] at hc,
              fun ⟨_, _, q, hq, hq'⟩ => absurd (Option.some.inj hq ▸ hq') hp⟩
          · exact ⟨fun _ => ⟨rfl, h, p, rfl, not_le.1 hp⟩, fun _ => rfl⟩
          · simp [getStatusEWSR]

/-- C43: the point is filtered out by the option of level 2 unless the minimum at high temperature was
found, and by the option of level 3 unless the symmetry is restored; never by the other levels. -/
theorem C43_filter (check outcome : Int) :
    ((ewsrDecision check outcome).1 = .off ↔ check ≤ 0) ∧
    ((ewsrDecision check outcome).2 = true ↔ (check = 2 ∧ outcome < 2) ∨ (check = 3 ∧ outcome < 3)) ∧
    (0 < check → (ewsrDecision check outcome).1 = getStatusEWSR outcome) := by
  unfold ewsrDecision
  by_cases h : check > 0
  · simp only [if_pos h]
    refine ⟨⟨fun h' => ?_, fun h' => by omega⟩, by simp, fun _ => trivial⟩
    revert h'; unfold getStatusEWSR; split_ifs <;> simp
  · simp only [if_neg h]
    refine ⟨⟨fun _ => by omega, fun _ => trivial⟩, by simp; omega, fun h' => absurd h' h⟩

/-- C43: different statuses print under different names, in every table. -/
theorem C43_names_distinct :
    Function.Injective NLOStatus.name ∧ Function.Injective EWSR.name ∧
    Function.Injective Tracing.name ∧ Function.Injective CoexPair.name ∧
    Function.Injective Crit.name ∧ Function.Injective TempStatus.name ∧
    Function.Injective GWStatus.name := by
  refine ⟨?_, ?_, ?_, ?_, ?_, ?_, ?_⟩ <;> intro a b <;> cases a <;> cases b <;> decide

/-- C43: the names of the statuses of the high-temperature check, and that of the stability check. -/
theorem C43_names (b : Bool) :
    [EWSR.ewSymRes, .ewSymNonRes, .flatRegion, .failure, .notBFB, .off, .notSet].map EWSR.name =
      ["ew_sym_res", "ew_syum_non_res", "flat_region", "failure", "non_bfb", "off", "not_set"] ∧
    (getStatusNLOVEV b).name = if b then "success" else "no_nlo_stability" := by
  refine ⟨rfl, ?_⟩
  cases b <;> rfl

/-! ## C47: removing flat directions -/

/-- C47: if the potential is rotation invariant in every stored plane, moving the point onto the
non-flat directions does not change the potential. -/
theorem C47_potential_unchanged_partial (V : Vec n ℝ → ℝ) (pairs : List (Fin n × Fin n))
    (hne : ∀ p ∈ pairs, p.1 ≠ p.2) (hrot : ∀ p ∈ pairs, RotationInvariant V p.1 p.2) (v : Vec n ℝ) :
    V (convertToNonFlat pairs v) = V v := by
  induction pairs generalizing v with
  | nil => rfl
  | cons p ps ih =>
    rw [convertToNonFlat, List.foldl_cons]
    have := ih (fun q hq => hne q (by simp [hq])) (fun q hq => hrot q (by simp [hq]))
      (Function.update (Function.update v p.1 (Real.sqrt (v p.1 * v p.1 + v p.2 * v p.2))) p.2 0)
    rw [convertToNonFlat] at this
    rw [this]
    have hp := hne p (by simp)
    apply hrot p (by simp)
    · intro k h1 h2
      simp [Function.update_of_ne h1, Function.update_of_ne h2]
    · simp only [Function.update_self, Function.update_of_ne hp]
      rw [Real.mul_self_sqrt (add_nonneg (mul_self_nonneg _) (mul_self_nonneg _))]
      ring

/-- C47: the length of the point is kept, and the second direction of every stored pair is empty
afterwards if no later pair touches it. -/
theorem C47_norm (i j : Fin n) (hij : i ≠ j) (v : Vec n ℝ) :
    convertToNonFlat [(i, j)] v j = 0 ∧ 0 ≤ convertToNonFlat [(i, j)] v i ∧
    convertToNonFlat [(i, j)] v i ^ 2 = v i ^ 2 + v j ^ 2 ∧
    ∀ k, k ≠ i → k ≠ j → convertToNonFlat [(i, j)] v k = v k := by
  have hi : convertToNonFlat [(i, j)] v i = Real.sqrt (v i * v i + v j * v j) := by
    simp [convertToNonFlat, Function.update_of_ne hij]
  refine ⟨by simp [convertToNonFlat], ?_, ?_, ?_⟩
  · rw [hi]; exact Real.sqrt_nonneg _
  · rw [hi, Real.sq_sqrt (add_nonneg (mul_self_nonneg _) (mul_self_nonneg _))]; ring
  · intro k h1 h2
    simp [convertToNonFlat, Function.update_of_ne h1, Function.update_of_ne h2]

/-- C47: every rotation invariant pair is found (each pair once, the smaller index first), if its value
at the probe is not negligible. -/
theorem C47_rotation_found (V : Vec n ℝ → ℝ) (i j : Fin n) (hij : i < j) (hrot : RotationInvariant V i j) :
    (i, j) ∈ flat2D V := by
  have heq : V (probe2 i j 2 100) = V (probe2 i j 100 2) := by
    apply hrot
    · intro k h1 h2; simp [probe2, h1, h2]
    · simp [probe2, hij.ne]; norm_num
  simp only [flat2D, List.mem_flatMap, List.mem_filterMap, List.mem_finRange, true_and]
  refine ⟨i, j, ?_⟩
  rw [if_pos]
  rw [heq]
  exact ⟨hij, (C17_scalar _ (V (probe2 i j 100 2)) _ _ (by norm_num) (by norm_num)).2.1⟩

/-- C47 is false of the code: the test only compares two points that are mirror images of each other, so
that a potential that is symmetric under the exchange of two directions, but not under rotations, is
taken to be flat, and moving a point to the non-flat directions changes its potential. -/
theorem C47_exchange_mistaken_for_flat :
    ∃ V : Vec 2 ℝ → ℝ, flat2D V = [(0, 1)] ∧
      V (convertToNonFlat (flat2D V) ![1, 1]) = 4 ∧ V ![1, 1] = 2 := by
  have hf : flat2D (fun v : Vec 2 ℝ => v 0 ^ 4 + v 1 ^ 4) = [(0, 1)] := by
    have e : List.finRange 2 = [0, 1] := by decide
    have h01 : almostSame ((2 : ℝ) ^ 4 + 100 ^ 4) (100 ^ 4 + 2 ^ 4) (1 / 10 ^ 8) (1 / 10 ^ 10) = true := by
      rw [add_comm ((100 : ℝ) ^ 4)]
      exact (C17_scalar (K := ℝ) _ (2 ^ 4 + 100 ^ 4) _ _ (by norm_num) (by norm_num)).2.1
    simp only [flat2D, e, List.flatMap_cons, List.flatMap_nil, List.filterMap_cons, List.filterMap_nil]
    simp [probe2]
    rw [if_pos (by simpa using h01)]
  refine ⟨_, hf, ?_, ?_⟩
  · rw [hf]
    simp only [convertToNonFlat, List.foldl_cons, List.foldl_nil]
    have h2 : Real.sqrt 2 ^ 4 = 4 := by
      rw [show (4 : ℕ) = 2 * 2 by norm_num, pow_mul, Real.sq_sqrt (by norm_num)]; norm_num
    norm_num
    exact h2
  · norm_num

/-- Hypotheses of `C47_potential_unchanged_partial`. -/
example : ∃ V : Vec 2 ℝ → ℝ, RotationInvariant V 0 1 ∧ V ![1, 1] ≠ V ![1, 2] := by
  refine ⟨fun v => v 0 * v 0 + v 1 * v 1, fun v w _ h => h, by norm_num⟩

/-! ## C48: the high-temperature seed -/

/-- The derivative of the quadratic approximation. -/
theorem quadratic_deriv (H : Matrix (Fin n) (Fin n) ℝ) (hH : H.transpose = H) (g x d : Vec n ℝ) :
    HasDerivAt (fun t : ℝ => quadratic H g (x + t • d)) ((g + H.mulVec x) ⬝ᵥ d) 0 := by
  have e : (fun t : ℝ => quadratic H g (x + t • d)) =
      fun t => quadratic H g x + t * ((g + H.mulVec x) ⬝ᵥ d) + t ^ 2 * (1 / 2 * (d ⬝ᵥ H.mulVec d)) := by
    funext t
    have hs : x ⬝ᵥ H.mulVec d = H.mulVec x ⬝ᵥ d := by
      rw [Matrix.dotProduct_mulVec, ← Matrix.mulVec_transpose, hH]
    simp only [quadratic, Matrix.mulVec_add, Matrix.mulVec_smul, dotProduct_add, add_dotProduct,
      dotProduct_smul, smul_dotProduct, smul_eq_mul]
    rw [hs, dotProduct_comm d (H.mulVec x)]
    ring
  rw [e]
  have h1 : HasDerivAt (fun t : ℝ => t * ((g + H.mulVec x) ⬝ᵥ d)) (1 * ((g + H.mulVec x) ⬝ᵥ d)) 0 :=
    (hasDerivAt_id 0).mul_const _
  have h2 : HasDerivAt (fun t : ℝ => t ^ 2 * (1 / 2 * (d ⬝ᵥ H.mulVec d)))
      ((2 : ℕ) * (0 : ℝ) ^ (2 - 1) * (1 / 2 * (d ⬝ᵥ H.mulVec d))) 0 :=
    (hasDerivAt_pow 2 (0 : ℝ)).mul_const _
  have := ((hasDerivAt_const (0 : ℝ) (quadratic H g x)).add h1).add h2
  refine this.congr_deriv ?_
  simp

/-- C48 is false of the code: the seed stored for the high-temperature minimum is the stationary point of
the quadratic approximation of the potential only if the gradient vanishes; the stationary point is its
mirror image. -/
theorem C48_seed_has_wrong_sign (H : Matrix (Fin n) (Fin n) ℝ) (hH : H.transpose = H)
    (hdet : IsUnit H.det) (g : Vec n ℝ) :
    Stationary (quadratic H g) (-highTemperatureVEV H g) ∧
    (Stationary (quadratic H g) (highTemperatureVEV H g) ↔ g = 0) := by
  have hmul : H.mulVec (highTemperatureVEV H g) = g := by
    rw [highTemperatureVEV, Matrix.mulVec_mulVec, Matrix.mul_nonsing_inv _ hdet, Matrix.one_mulVec]
  constructor
  · intro d
    have := quadratic_deriv H hH g (-highTemperatureVEV H g) d
    rwa [Matrix.mulVec_neg, hmul, add_neg_cancel, zero_dotProduct] at this
  · constructor
    · intro hs
      have h1 := quadratic_deriv H hH g (highTemperatureVEV H g) g
      have := h1.unique (hs g)
      rw [hmul, add_dotProduct] at this
      exact dotProduct_self_eq_zero.1 (by linarith)
    · intro hg d
      have := quadratic_deriv H hH g (highTemperatureVEV H g) d
      rw [hmul, hg, add_zero, zero_dotProduct] at this
      rw [hg]
      exact this

/-- C48: the status of the check is nevertheless right whenever the electroweak VEV of a point and of its
mirror image agree. -/
theorem C48_status_unaffected (converged : Bool) (ev : ℝ) (p : Vec n ℝ) (ewvev : Vec n ℝ → ℝ)
    (hsym : ∀ p, ewvev (-p) = ewvev p) :
    ewsrOutcome converged ev (some p) ewvev = ewsrOutcome converged ev (some (-p)) ewvev := by
  simp [ewsrOutcome, hsym]

/-- Hypotheses of `C48_seed_has_wrong_sign` with a non-zero gradient. -/
example : ∃ (H : Matrix (Fin 1) (Fin 1) ℝ) (g : Vec 1 ℝ), H.transpose = H ∧ IsUnit H.det ∧ g ≠ 0 :=
  ⟨1, fun _ => 1, by simp, by simp, fun h => by simpa using congrFun h 0⟩

end Verif.Tracer
