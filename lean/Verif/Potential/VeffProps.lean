import Verif.Potential.TreeSpec
import Verif.Models.Props
import Mathlib.Tactic.Linarith
import Mathlib.Analysis.Real.Sqrt

/-!
# The effective potential for both input shapes (C34), the vacuum checks (C37, C38)
-/

set_option linter.unusedSectionVars false

namespace Verif.Potential

open Outcome
open Models (minimizeOrderVEV Class)
open Models.Spec (IsEmbedding)

/-! ## C34: the requested order -/

section Order

variable {K : Type} [Field K] {n : Nat}

/-- The full property: a vector in minimizer coordinates gives the value of the field vector it
stands for, for every order. -/
def SameForBothShapes (p : Parts n K) : Prop :=
  ∀ (v w : List K) (T : K) (diff order : Int), v.length = p.vevOrder.length →
    minimizeOrderVEV n p.vevOrder v = ok w → w.length = n →
    vEff p v T diff order = vEff p w T diff order

theorem vEff_full (p : Parts n K) (w : List K) (hw : w.length = n) (T : K) (diff order : Int)
    (hl : p.vevOrder.length ≠ n) : vEff p w T diff order = vEffFull p w T diff order := by
  rw [vEff, if_neg (by simp [hw]), if_neg (by rintro ⟨h1, _⟩; exact hl (h1 ▸ hw))]

/-- For a full field vector order zero (or tree level only) gives the tree-level potential alone
and every other order the sum of the three contributions. -/
theorem C34_orders (p : Parts n K) (w : List K) (hw : w.length = n) (T : K) (diff order : Int)
    (hl : p.vevOrder.length ≠ n) :
    vEff p w T diff order =
      if order = 0 ∨ p.useTreeLevel = true then ok (p.tree w diff)
      else (p.loop w T diff).bind fun l => ok (p.tree w diff + p.counter w diff + l) := by
  rw [vEff_full p w hw T diff order hl, vEffFull]
  by_cases h : order = 0 ∨ p.useTreeLevel = true
  · rw [if_pos h, if_neg (by rintro ⟨h1, h2⟩; rcases h with h | h <;> simp_all)]
  · rw [if_neg h, if_pos (by
      constructor
      · exact fun h0 => h (Or.inl h0)
      · cases hu : p.useTreeLevel
        · rfl
        · exact absurd (Or.inr hu) h)]
    rfl

/-- The same when all fields have VEVs (`nVEV = NHiggs`): no vector is taken to be in minimizer
coordinates. -/
theorem C34_orders_all_fields (p : Parts n K) (w : List K) (hw : w.length = n) (T : K)
    (diff order : Int) (hl : p.vevOrder.length = n) :
    vEff p w T diff order = vEffFull p w T diff order := by
  rw [vEff, if_neg (by simp [hw]), if_neg (by rintro ⟨_, h⟩; exact h hl)]

/-- Vectors of another length are refused. -/
theorem C34_bad_length (p : Parts n K) (v : List K) (T : K) (diff order : Int)
    (h1 : v.length ≠ p.vevOrder.length) (h2 : v.length ≠ n) :
    vEff p v T diff order = err .runtime := by
  rw [vEff, if_pos ⟨h1, h2⟩]

/-- In minimizer coordinates the requested order is ignored: the result is that of order one. -/
theorem C34_order_ignored (p : Parts n K) (v w : List K) (T : K) (diff order : Int)
    (hv : v.length = p.vevOrder.length) (hl : p.vevOrder.length ≠ n)
    (hw : minimizeOrderVEV n p.vevOrder v = ok w) (hwn : w.length = n) :
    vEff p v T diff order = vEff p w T diff 1 := by
  rw [vEff_full p w hwn T diff 1 hl, vEff, if_neg (by simp [hv]), if_pos ⟨hv, hl⟩, hw]
  rfl

/-- What remains of the property: both shapes agree for every order other than zero, and for order
zero when only the tree level is used. -/
theorem C34_both_shapes_partial (p : Parts n K) (v w : List K) (T : K) (diff order : Int)
    (hv : v.length = p.vevOrder.length) (hl : p.vevOrder.length ≠ n)
    (hw : minimizeOrderVEV n p.vevOrder v = ok w) (hwn : w.length = n)
    (ho : order ≠ 0 ∨ p.useTreeLevel = true) :
    vEff p v T diff order = vEff p w T diff order := by
  rw [C34_order_ignored p v w T diff order hv hl hw hwn, vEff_full p w hwn _ _ _ hl,
    vEff_full p w hwn _ _ _ hl, vEffFull, vEffFull]
  rcases ho with ho | ho
  · simp [ho]
  · simp [ho]

/-- A model with two fields, the second of which has a VEV, with tree-level potential 0 and
counterterm potential 1. -/
def orderWitness : Parts 2 ℚ :=
  ⟨[1], false, fun _ _ => 0, fun _ _ => 1, fun _ _ _ => ok 0⟩

/-- The full property fails: order zero in minimizer coordinates gives 1 instead of the tree-level
value 0. -/
theorem C34_order_dropped : ¬ SameForBothShapes orderWitness := by
  intro h
  have := h [5] [0, 5] 0 0 0 rfl rfl rfl
  revert this
  decide +kernel

end Order

/-! ## C37: the check of the NLO vacuum -/

section NLO

variable {F : Type} [Field F] [LinearOrder F] [IsStrictOrderedRing F]

theorem maxDiff_lt (l : List (F × F)) (m : F) :
    ∃ r, maxDiff (l.map fun p => (Flt.fin p.1, Flt.fin p.2)) (.fin m) = .fin r ∧
      (r < 1 ↔ m < 1 ∧ ∀ p ∈ l, |(|p.1| - |p.2|)| < 1) := by
  induction l generalizing m with
  | nil => exact ⟨m, rfl, by simp⟩
  | cons p l ih =>
    rw [List.map_cons, maxDiff]
    by_cases h : m < |(|p.1| - |p.2|)|
    · have : Flt.gt (Flt.fin |(|p.1| - |p.2|)|) (Flt.fin m) = true := by simpa using h
      obtain ⟨r, hr, hiff⟩ := ih |(|p.1| - |p.2|)|
      refine ⟨r, by simpa [this] using hr, hiff.trans ⟨?_, ?_⟩⟩
      · rintro ⟨h1, h2⟩
        exact ⟨h.trans h1, fun q hq => by
          rcases List.mem_cons.1 hq with rfl | hq
          · exact h1
          · exact h2 q hq⟩
      · rintro ⟨_, h2⟩
        exact ⟨h2 p (by simp), fun q hq => h2 q (by simp [hq])⟩
    · have : Flt.gt (Flt.fin |(|p.1| - |p.2|)|) (Flt.fin m) = false := by
        rw [Bool.eq_false_iff]; simpa using h
      obtain ⟨r, hr, hiff⟩ := ih m
      refine ⟨r, by simpa [this] using hr, hiff.trans ⟨?_, ?_⟩⟩
      · rintro ⟨h1, h2⟩
        exact ⟨h1, fun q hq => by
          rcases List.mem_cons.1 hq with rfl | hq
          · exact lt_of_le_of_lt (not_lt.1 h) h1
          · exact h2 q hq⟩
      · rintro ⟨h1, h2⟩
        exact ⟨h1, fun q hq => h2 q (by simp [hq])⟩

/-- The full property: a vacuum is accepted iff every component is a number that agrees in absolute
value with the tree-level vacuum to less than 1 GeV. -/
def AcceptsExactlyClose (F : Type) [Field F] [LinearOrder F] : Prop :=
  ∀ (v : List (Flt F)) (t : List F), v.length = t.length →
    (checkNLOVEV v (t.map Flt.fin) = true ↔
      ∀ p ∈ v.zip t, ∃ a, p.1 = .fin a ∧ |(|a| - |p.2|)| < 1)

/-- The property for vacua whose components are numbers; signs do not matter. -/
theorem C37_close_partial (v t : List F) :
    checkNLOVEV (v.map Flt.fin) (t.map Flt.fin) = true ↔
      ∀ p ∈ v.zip t, |(|p.1| - |p.2|)| < 1 := by
  have hz : (v.map Flt.fin).zip (t.map Flt.fin) =
      (v.zip t).map fun p => (Flt.fin p.1, Flt.fin p.2) := by
    induction v generalizing t with
    | nil => simp
    | cons a v ih => cases t <;> simp [ih]
  obtain ⟨r, hr, hiff⟩ := maxDiff_lt (v.zip t) (0 : F)
  rw [checkNLOVEV, hz, hr, Flt.lt_fin, hiff]
  simp

theorem maxDiff_nan (x y : Flt F) (h : x = .nan ∨ y = .nan) (rest : List (Flt F × Flt F))
    (m : Flt F) : maxDiff ((x, y) :: rest) m = maxDiff rest m := by
  rcases h with rfl | rfl
  · simp [maxDiff]
  · cases x <;> simp [maxDiff]

/-- Components that are not numbers are skipped by the check. -/
theorem C37_nan_skipped (y : Flt F) (v t : List (Flt F)) :
    checkNLOVEV (.nan :: v) (y :: t) = checkNLOVEV v t := by
  rw [checkNLOVEV, checkNLOVEV, List.zip_cons_cons, maxDiff_nan _ _ (Or.inl rfl)]

/-- So a vacuum without a single number is accepted and the full property fails. -/
theorem C37_nan_accepted : ¬ AcceptsExactlyClose F := by
  intro h
  have h1 := (h [.nan] [0] rfl).1 (by
    rw [List.map_cons, C37_nan_skipped]
    simp [checkNLOVEV, maxDiff])
  obtain ⟨a, ha, _⟩ := h1 (.nan, 0) (by simp)
  simp at ha

example : checkNLOVEV ([3, -246].map Flt.fin) ([(-7 : ℚ) / 2, 246].map Flt.fin) = true := by
  decide +kernel
example : checkNLOVEV ([3, -246].map Flt.fin) ([(4 : ℚ), 246].map Flt.fin) = false := by
  decide +kernel

end NLO

/-! ## C38: the electroweak VEV -/

section EW

variable {F : Type} [Field F] [LinearOrder F] [IsStrictOrderedRing F]

/-- Field `i` couples to the gauge bosons. -/
def Charged (nGauge : Nat) (g : Nat → Nat → F) (i : Nat) : Prop := ∃ j < nGauge, g j i ≠ 0

theorem checkGauge_nonneg (nGauge : Nat) (g : Nat → Nat → F) (i : Nat) :
    0 ≤ checkGauge nGauge g i := by
  unfold checkGauge
  apply List.sum_nonneg
  intro x hx
  obtain ⟨j, _, rfl⟩ := List.mem_map.1 hx
  exact abs_nonneg _

theorem checkGauge_ne_zero (nGauge : Nat) (g : Nat → Nat → F) (i : Nat) :
    checkGauge nGauge g i ≠ 0 ↔ Charged nGauge g i := by
  unfold checkGauge Charged
  induction nGauge with
  | zero => simp
  | succ m ih =>
    have h0 : 0 ≤ checkGauge m g i := checkGauge_nonneg m g i
    unfold checkGauge at h0
    rw [List.range_succ, List.map_append, List.sum_append]
    simp only [List.map_cons, List.map_nil, List.sum_cons, List.sum_nil, add_zero]
    constructor
    · intro h
      by_cases hm : g m i = 0
      · rw [hm, abs_zero, add_zero] at h
        obtain ⟨j, hj, hne⟩ := ih.1 h
        exact ⟨j, by omega, hne⟩
      · exact ⟨m, by omega, hm⟩
    · rintro ⟨j, hj, hne⟩ h
      by_cases hjm : j = m
      · subst hjm
        have := abs_pos.2 hne
        linarith
      · have h1 := ih.2 ⟨j, by omega, hne⟩
        have h2 : 0 < (List.map (fun j => |g j i|) (List.range m)).sum := lt_of_le_of_ne h0 (Ne.symm h1)
        have := abs_nonneg (g m i)
        linarith

open Classical in
theorem ewSquares_eq (nGauge : Nat) (g : Nat → Nat → F) (v : List F) (fuel i : Nat)
    (hv : i + fuel ≤ v.length) :
    ewSquares nGauge g v fuel i =
      ok (((List.range fuel).map fun k =>
        if Charged nGauge g (i + k) then v.getD (i + k) 0 ^ 2 else 0).sum) := by
  induction fuel generalizing i with
  | zero => simp [ewSquares]
  | succ fuel ih =>
    have hr := ih (i + 1) (by omega)
    have hsum : ((List.range (fuel + 1)).map fun k =>
        if Charged nGauge g (i + k) then v.getD (i + k) 0 ^ 2 else 0).sum =
        (if Charged nGauge g i then v.getD i 0 ^ 2 else 0) + ((List.range fuel).map fun k =>
          if Charged nGauge g (i + 1 + k) then v.getD (i + 1 + k) 0 ^ 2 else 0).sum := by
      rw [List.range_succ_eq_map, List.map_cons, List.sum_cons, List.map_map]
      congr 2
      apply List.map_congr_left
      intro k _
      simp only [Function.comp]
      rw [show i + (k + 1) = i + 1 + k by omega]
    rw [hsum, ewSquares]
    by_cases hc : Charged nGauge g i
    · rw [if_pos ((checkGauge_ne_zero nGauge g i).2 hc), at'_of_lt (by omega), hr, if_pos hc]
      simp [List.getElem?_eq_getElem (show i < v.length by omega)]
    · rw [if_neg (fun h => hc ((checkGauge_ne_zero nGauge g i).1 h)), hr, if_neg hc, zero_add]

open Classical in
/-- `EWSBVEV` is the norm of the components of the charged fields if that exceeds 0.5 GeV and zero
otherwise; it does not depend on the other components. -/
theorem C38_value (nHiggs nGauge : Nat) (g : Nat → Nat → ℝ) (v : List ℝ) (hv : v.length = nHiggs) :
    let r := Real.sqrt (((List.range nHiggs).map fun i =>
      if Charged nGauge g i then v.getD i 0 ^ 2 else 0).sum)
    ewsbVEV Real.sqrt nHiggs nGauge g v = ok (if 1 / 2 < r then r else 0) := by
  intro r
  have h := ewSquares_eq nGauge g v nHiggs 0 (by omega)
  simp only [Nat.zero_add] at h
  rw [ewsbVEV, h]
  show (if r ≤ 1 / 2 then ok 0 else ok r) = _
  by_cases hr : r ≤ 1 / 2
  · rw [if_pos hr, if_neg (not_lt.2 hr)]
  · rw [if_neg hr, if_pos (not_le.1 hr)]

/-- So its value is zero or above the threshold. -/
theorem C38_zero_or_large (nHiggs nGauge : Nat) (g : Nat → Nat → ℝ) (v : List ℝ)
    (hv : v.length = nHiggs) :
    ∃ x, ewsbVEV Real.sqrt nHiggs nGauge g v = ok x ∧ (x = 0 ∨ 1 / 2 < x) := by
  refine ⟨_, C38_value nHiggs nGauge g v hv, ?_⟩
  split
  · next h => exact Or.inr h
  · exact Or.inl rfl

/-- A vector that is too short is refused when a charged field lies beyond its end. -/
theorem C38_short_vector (nHiggs nGauge : Nat) (g : Nat → Nat → ℝ) (v : List ℝ) (i : Nat)
    (hi : i < nHiggs) (hv : v.length ≤ i) (hc : Charged nGauge g i) :
    ewsbVEV Real.sqrt nHiggs nGauge g v = err .outOfRange := by
  have key : ∀ fuel k, k ≤ i → i < k + fuel → ewSquares nGauge g v fuel k = err .outOfRange := by
    intro fuel
    induction fuel with
    | zero => intro k h1 h2; omega
    | succ fuel ih =>
      intro k h1 h2
      rw [ewSquares]
      by_cases hk : k = i
      · subst hk
        rw [if_pos ((checkGauge_ne_zero nGauge g k).2 hc), at'_of_ge hv]
        rfl
      · have hr := ih (k + 1) (by omega) (by omega)
        by_cases hck : checkGauge nGauge g k ≠ 0
        · rw [if_pos hck, hr]
          by_cases hkv : k < v.length
          · rw [at'_of_lt hkv]; rfl
          · rw [at'_of_ge (by omega)]; rfl
        · rw [if_neg hck, hr]
  rw [ewsbVEV, key nHiggs 0 (by omega) (by omega)]
  rfl

/-- The gauge couplings are either zero or well above the threshold of `SetEWVEVZero`. -/
def CleanGauge (nGauge : Nat) (g : Nat → Nat → F) : Prop :=
  ∀ i, Charged nGauge g i → 1 / 10 ^ 10 < checkGauge nGauge g i

theorem clean_iff (nGauge : Nat) (g : Nat → Nat → F) (hg : CleanGauge nGauge g) (i : Nat) :
    1 / 10 ^ 10 < checkGauge nGauge g i ↔ Charged nGauge g i := by
  refine ⟨fun h => (checkGauge_ne_zero nGauge g i).1 (fun h0 => ?_), hg i⟩
  rw [h0] at h
  exact absurd h (not_lt.2 (by positivity))

/-- What `SetEWVEVZero` should do: VEVs of charged fields become zero, the others stay. -/
def ZeroesCharged (nGauge : Nat) (g : Nat → Nat → F) (order : List Nat) (sol sol' : List F) : Prop :=
  sol'.length = sol.length ∧ ∀ k o : Nat, order[k]? = some o →
    (Charged nGauge g o → sol'[k]? = some 0) ∧ (¬ Charged nGauge g o → sol'[k]? = sol[k]?)

theorem setEWVEVZeroLoop_spec (nGauge : Nat) (g : Nat → Nat → F) (hg : CleanGauge nGauge g)
    (order : List Nat) (m : Nat) (hm : m ≤ order.length)
    (hs : order.Pairwise (· < ·))
    (hch : ∀ k (h : k < order.length), k < m ↔ Charged nGauge g order[k])
    (fuel i count : Nat) (sol : List F) (hsol : sol.length = order.length) (hc : count ≤ m)
    (hlow : ∀ k (h : k < order.length), k < count → order[k] < i)
    (hhigh : ∀ k (h : k < order.length), count ≤ k → i ≤ order[k])
    (hfit : ∀ k (h : k < order.length), order[k] < i + fuel)
    (hend : m = order.length → ∀ j, i ≤ j → j < i + fuel → Charged nGauge g j →
      ∃ k, ∃ h : k < order.length, j ≤ order[k]) :
    ∃ sol', setEWVEVZeroLoop nGauge g order fuel i count sol = ok sol' ∧
      sol'.length = sol.length ∧
      ∀ k, (count ≤ k → k < m → sol'[k]? = some 0) ∧
        (¬ (count ≤ k ∧ k < m) → sol'[k]? = sol[k]?) := by
  induction fuel generalizing i count sol with
  | zero =>
    refine ⟨sol, rfl, rfl, fun k => ⟨fun h1 h2 => ?_, fun _ => rfl⟩⟩
    have := hhigh k (by omega) h1
    have := hfit k (by omega)
    omega
  | succ fuel ih =>
    rw [setEWVEVZeroLoop]
    by_cases hci : Charged nGauge g i
    · rw [if_pos ((clean_iff nGauge g hg i).2 hci)]
      have hcount : count < order.length := by
        by_contra hge
        have hml : m = order.length := by omega
        obtain ⟨k, hk, hjk⟩ := hend hml i (le_refl _) (by omega) hci
        have := hlow k hk (by omega)
        omega
      rw [idx_of_lt hcount]
      simp only [bind_ok]
      by_cases hio : i = order[count]
      · rw [if_pos hio, at'_of_lt (by omega)]
        simp only [bind_ok]
        have hcm : count < m := (hch count hcount).2 (hio ▸ hci)
        obtain ⟨sol', h1, h2, h3⟩ := ih (i + 1) (count + 1) (sol.set count 0)
          (by simpa using hsol) (by omega)
          (fun k hk hlt => by
            by_cases hkc : k = count
            · subst hkc; omega
            · have := hlow k hk (by omega); omega)
          (fun k hk hge => by
            have := (List.pairwise_iff_getElem.1 hs) count k hcount hk (by omega)
            omega)
          (fun k hk => by have := hfit k hk; omega)
          (fun hml j hj1 hj2 hj3 => hend hml j (by omega) (by omega) hj3)
        refine ⟨sol', h1, by simpa using h2, fun k => ⟨fun hk1 hk2 => ?_, fun hk => ?_⟩⟩
        · by_cases hkc : k = count
          · subst hkc
            rw [(h3 k).2 (by omega)]
            rw [List.getElem?_set_self (by omega)]
          · exact (h3 k).1 (by omega) hk2
        · have hkc : k ≠ count := by rintro rfl; exact hk ⟨le_refl _, hcm⟩
          rw [(h3 k).2 (by omega), List.getElem?_set_ne (Ne.symm hkc)]
      · rw [if_neg hio]
        have hgt := hhigh count hcount (le_refl _)
        exact ih (i + 1) count sol hsol hc
          (fun k hk hlt => by have := hlow k hk hlt; omega)
          (fun k hk hge => by
            by_cases hkc : k = count
            · subst hkc; omega
            · have := (List.pairwise_iff_getElem.1 hs) count k hcount hk (by omega)
              omega)
          (fun k hk => by have := hfit k hk; omega)
          (fun hml j hj1 hj2 hj3 => hend hml j (by omega) (by omega) hj3)
    · rw [if_neg (fun h => hci ((clean_iff nGauge g hg i).1 h))]
      by_cases hex : ∃ k, ∃ h : k < order.length, count ≤ k ∧ order[k] = i
      · -- the next VEV belongs to an uncharged field: nothing is set from here on
        obtain ⟨k, hk, hck, hki⟩ := hex
        have hkm : m ≤ k := by
          by_contra hlt
          exact hci (hki ▸ (hch k hk).1 (by omega))
        have hcm : count = m := by
          by_contra hne
          have h1 := hhigh count (by omega) (le_refl _)
          have h2 := (List.pairwise_iff_getElem.1 hs) count k (by omega) hk (by omega)
          omega
        -- no later index matches a charged VEV
        have hstuck : ∀ fuel i, order[k] < i → (∀ j, i ≤ j → True) →
            setEWVEVZeroLoop nGauge g order fuel i count sol = ok sol := by
          intro fuel
          induction fuel with
          | zero => intros; rfl
          | succ fuel ih2 =>
            intro i hi _
            rw [setEWVEVZeroLoop]
            split
            · rw [idx_of_lt (by omega : count < order.length)]
              simp only [bind_ok]
              have hle : order[count]'(by omega) ≤ order[k] := by
                by_cases h : count = k
                · subst h; omega
                · have := (List.pairwise_iff_getElem.1 hs) count k (by omega) hk (by omega)
                  omega
              rw [if_neg (by omega)]
              exact ih2 (i + 1) (by omega) (fun _ _ => trivial)
            · exact ih2 (i + 1) (by omega) (fun _ _ => trivial)
        refine ⟨sol, hstuck fuel (i + 1) (by omega) (fun _ _ => trivial), rfl, fun k => ⟨?_, fun _ => rfl⟩⟩
        intro h1 h2; omega
      · refine ih (i + 1) count sol hsol hc
          (fun k hk hlt => by have := hlow k hk hlt; omega)
          (fun k hk hge => by
            have h1 := hhigh k hk hge
            by_contra h2
            exact hex ⟨k, hk, hge, by omega⟩)
          (fun k hk => by have := hfit k hk; omega)
          (fun hml j hj1 hj2 hj3 => hend hml j (by omega) (by omega) hj3)

/-- When the VEVs of charged fields come first (`m` of them) and, if all VEVs are of that kind, no
charged field comes after the last VEV, `SetEWVEVZero` sets exactly the VEVs of charged fields to
zero. -/
theorem C38_set_zero_partial (nHiggs nGauge : Nat) (g : Nat → Nat → F) (hg : CleanGauge nGauge g)
    (order : List Nat) (m : Nat) (hm : m ≤ order.length) (hs : order.Pairwise (· < ·))
    (hr : ∀ o ∈ order, o < nHiggs)
    (hch : ∀ k (h : k < order.length), k < m ↔ Charged nGauge g order[k])
    (hend : m = order.length → ∀ j, j < nHiggs → Charged nGauge g j → ∃ o ∈ order, j ≤ o)
    (sol : List F) (hsol : sol.length = order.length) :
    ∃ sol', setEWVEVZero nHiggs nGauge g order sol = ok sol' ∧
      ZeroesCharged nGauge g order sol sol' := by
  obtain ⟨sol', h1, h2, h3⟩ := setEWVEVZeroLoop_spec nGauge g hg order m hm hs hch nHiggs 0 0 sol
    hsol (by omega) (fun k _ h => by omega) (fun k _ _ => by omega)
    (fun k hk => by simpa using hr _ (List.getElem_mem hk))
    (fun hml j _ hj2 hj3 => by
      obtain ⟨o, ho, hjo⟩ := hend hml j (by omega) hj3
      obtain ⟨k, hk, rfl⟩ := List.mem_iff_getElem.1 ho
      exact ⟨k, hk, hjo⟩)
  refine ⟨sol', h1, h2, fun k o hko => ?_⟩
  obtain ⟨hk, rfl⟩ := List.getElem?_eq_some_iff.1 hko
  constructor
  · intro hc
    exact (h3 k).1 (by omega) ((hch k hk).2 hc)
  · intro hc
    exact (h3 k).2 (fun h => hc ((hch k hk).1 h.2))

/-- The vacuum returned by `SetEWVEVZero` has electroweak VEV zero. -/
theorem C38_then_zero (nHiggs nGauge : Nat) (g : Nat → Nat → ℝ) (order : List Nat)
    (sol sol' w : List ℝ) (hz : ZeroesCharged nGauge g order sol sol')
    (hw : IsEmbedding nHiggs order sol' w) :
    ewsbVEV Real.sqrt nHiggs nGauge g w = ok 0 := by
  classical
  obtain ⟨hl, h1, h2⟩ := hw
  rw [C38_value nHiggs nGauge g w hl]
  have hall : ∀ i ∈ List.range nHiggs,
      (if Charged nGauge g i then w.getD i 0 ^ 2 else 0) = 0 := by
    intro i hi
    rw [List.mem_range] at hi
    by_cases hc : Charged nGauge g i
    · rw [if_pos hc]
      have : w[i]? = some 0 := by
        by_cases ho : i ∈ order
        · obtain ⟨k, hk, hki⟩ := List.mem_iff_getElem.1 ho
          have hko : order[k]? = some i := by rw [List.getElem?_eq_getElem hk, hki]
          exact h1 k i 0 hko ((hz.2 k i hko).1 hc)
        · exact h2 i hi ho
      simp [List.getD, this]
    · rw [if_neg hc]
  rw [List.map_congr_left hall]
  simp

/-- For the SM, whose VEV is at position 2 while field 3 is charged too, `SetEWVEVZero` reads past
the end of `VevOrder`. -/
theorem C38_sm_reads_past_the_end (cb : Bool) (nGauge : Nat) (g : Nat → Nat → F)
    (hg : CleanGauge nGauge g) (hc : ∀ i < 4, Charged nGauge g i) (x : F) :
    setEWVEVZero Class.sm.nHiggs nGauge g (Class.sm.vevOrder cb) [x] = ub .outOfBounds := by
  have h : ∀ i < 4, 1 / 10 ^ 10 < checkGauge nGauge g i := fun i hi => hg i (hc i hi)
  have h0 := h 0 (by omega)
  have h1 := h 1 (by omega)
  have h2 := h 2 (by omega)
  have h3 := h 3 (by omega)
  show setEWVEVZeroLoop nGauge g [2] 4 0 0 [x] = _
  rw [setEWVEVZeroLoop, if_pos h0, idx_of_lt (by simp)]
  simp only [bind_ok, List.getElem_cons_zero]
  rw [if_neg (by omega), setEWVEVZeroLoop, if_pos h1, idx_of_lt (by simp)]
  simp only [bind_ok, List.getElem_cons_zero]
  rw [if_neg (by omega), setEWVEVZeroLoop, if_pos h2, idx_of_lt (by simp)]
  simp only [bind_ok, List.getElem_cons_zero]
  rw [if_pos trivial, at'_of_lt (by simp)]
  simp only [bind_ok]
  rw [setEWVEVZeroLoop, if_pos h3, idx_of_ge (by simp)]
  rfl

/-- Number of fields in doublets, which come first in every model: the diagonal entries of
`Curvature_Gauge_G2H2` set in `SetCurvatureArrays` of the models (for instance
ClassPotentialCxSM.cpp:1027-1078, ClassPotentialN2HDM.cpp:1609-). -/
def doublets : Class → Nat
  | .sm => 4
  | .r2hdm => 8
  | .c2hdm => 8
  | .n2hdm => 8
  | .cxsm => 4
  | .cpinthedark => 8
  | .template => 1

/-- For every implemented model other than the SM, whatever the vacuum, `SetEWVEVZero` sets exactly
the VEVs of charged fields to zero. -/
theorem C38_models_partial (cb : Bool) (c : Class) (hc : c ≠ .sm) (nGauge : Nat)
    (g : Nat → Nat → F) (hg : CleanGauge nGauge g)
    (hch : ∀ i < c.nHiggs, Charged nGauge g i ↔ i < doublets c) (sol : List F)
    (hsol : sol.length = (c.vevOrder cb).length) :
    ∃ sol', setEWVEVZero c.nHiggs nGauge g (c.vevOrder cb) sol = ok sol' ∧
      ZeroesCharged nGauge g (c.vevOrder cb) sol sol' := by
  have hr : ∀ o ∈ c.vevOrder cb, o < c.nHiggs := by
    cases c <;> cases cb <;> decide
  refine C38_set_zero_partial c.nHiggs nGauge g hg (c.vevOrder cb)
    ((c.vevOrder cb).countP (· < doublets c)) (List.countP_le_length) ?_ hr ?_ ?_ sol hsol
  · cases c <;> cases cb <;> decide
  · intro k hk
    rw [hch _ (hr _ (List.getElem_mem hk))]
    revert k
    cases c <;> cases cb <;> decide
  · intro _ j hj _
    have : c.nHiggs - 1 ∈ c.vevOrder cb := by
      revert hc
      cases c <;> cases cb <;> decide
    exact ⟨_, this, by omega⟩

/-- One gauge boson coupling to field 1 only. -/
def singletFirst : Nat → Nat → ℚ := fun _ i => if i = 1 then 1 else 0

/-- If the VEV of an uncharged field comes first, the VEV of the charged field is not set to zero:
the full statement (for every order of the VEVs) fails. -/
theorem C38_singlet_first_fails :
    CleanGauge 1 singletFirst ∧
    ∃ sol', setEWVEVZero 2 1 singletFirst [0, 1] [7, 9] = ok sol' ∧
      ¬ ZeroesCharged 1 singletFirst [0, 1] [7, 9] sol' := by
  refine ⟨?_, [7, 9], by decide +kernel, ?_⟩
  · rintro i ⟨j, hj, hne⟩
    have : i = 1 := by
      by_contra h
      simp [singletFirst, h] at hne
    subst this
    decide +kernel
  · intro h
    have := (h.2 1 1 rfl).1 ⟨0, by omega, by decide +kernel⟩
    revert this
    decide +kernel

/-- The CxSM: four charged fields, VEVs at 3 (charged), 4 and 5. -/
example : setEWVEVZero Class.cxsm.nHiggs 1 (fun _ i => if i < 4 then (1 : ℚ) else 0)
    (Class.cxsm.vevOrder true) [7, 8, 9] = ok [0, 8, 9] := by
  decide +kernel

/-- The C2HDM without charge-breaking VEVs. -/
example : setEWVEVZero Class.c2hdm.nHiggs 1 (fun _ i => if i < 8 then (1 : ℚ) else 0)
    (Class.c2hdm.vevOrder false) [7, 8, 9] = ok [0, 0, 0] := by
  decide +kernel

end EW

end Verif.Potential
