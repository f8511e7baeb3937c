import Verif.Fh.Masses
import Mathlib.Data.Finset.Card
import Mathlib.Data.Finset.Range
import Mathlib.Tactic.Linarith
import Mathlib.Tactic.NormNum
import Mathlib.Data.Rat.Cast.Order

/-!
# C128: the masses of the W boson and the top quark in the transport equations
-/

set_option linter.unusedSectionVars false

namespace Verif.Fh

open Verif Outcome

variable {K : Type} [Field K] [LinearOrder K] [IsStrictOrderedRing K]

/-- The mass at position `j` is a number and is repeated: another one of the first `n` masses differs by at most
10⁻⁵. -/
def Repeated (res : List (Flt K)) (n j : ℕ) (x : K) : Prop :=
  res[j]? = some (.fin x) ∧ ∃ i y, i < n ∧ i ≠ j ∧ res[i]? = some (.fin y) ∧ |x - y| ≤ 1 / 10 ^ 5

theorem closeMass_iff (a b : Flt K) :
    closeMass a b = true ↔ ∃ x y, a = .fin x ∧ b = .fin y ∧ |x - y| ≤ 1 / 10 ^ 5 := by
  cases a <;> cases b <;> simp [closeMass]

theorem getD_fin (res : List (Flt K)) (j : ℕ) (x : K) : res.getD j .nan = .fin x ↔ res[j]? = some (.fin x) := by
  rw [List.getD_eq_getElem?_getD]
  cases res[j]? <;> simp

theorem nrepeat_gt (res : List (Flt K)) (n j : ℕ) (hj : j < n) :
    nrepeat res n (res.getD j .nan) > 1 ↔ ∃ x, Repeated res n j x := by
  have hc : nrepeat res n (res.getD j .nan)
      = ((Finset.range n).filter fun i => closeMass (res.getD j .nan) (res.getD i .nan) = true).card := by
    rw [nrepeat, ← List.toFinset_card_of_nodup (List.nodup_range.filter _)]
    congr 1
    ext i
    simp
  rw [hc, gt_iff_lt, Finset.one_lt_card]
  constructor
  · rintro ⟨a, ha, b, hb, hab⟩
    rw [Finset.mem_filter, Finset.mem_range] at ha hb
    have key : ∀ c, c < n → c ≠ j → closeMass (res.getD j .nan) (res.getD c .nan) = true →
        ∃ x, Repeated res n j x := by
      intro c hc hne h
      obtain ⟨x, y, h1, h2, h3⟩ := (closeMass_iff _ _).1 h
      exact ⟨x, (getD_fin _ _ _).1 h1, c, y, hc, hne, (getD_fin _ _ _).1 h2, h3⟩
    by_cases hja : a = j
    · exact key b hb.1 (fun h => hab (hja.trans h.symm)) hb.2
    · exact key a ha.1 hja ha.2
  · rintro ⟨x, h, i, y, hi, hne, h2, h3⟩
    refine ⟨i, ?_, j, ?_, hne⟩
    · rw [Finset.mem_filter, Finset.mem_range, closeMass_iff]
      exact ⟨hi, x, y, (getD_fin _ _ _).2 h, (getD_fin _ _ _).2 h2, h3⟩
    · rw [Finset.mem_filter, Finset.mem_range, closeMass_iff]
      exact ⟨hj, x, x, (getD_fin _ _ _).2 h, (getD_fin _ _ _).2 h, by rw [sub_self, abs_zero]; positivity⟩

/-- C128: the mass used for the W boson is the last one that is repeated, and zero if none is; there is no
exception. -/
theorem C128_w (n : ℕ) (res : List (Flt K)) (h : n ≤ res.length) :
    (∃ j x, j < n ∧ Repeated res n j x ∧ (∀ i y, j < i → i < n → ¬Repeated res n i y) ∧
      wMass n res = ok (.fin x)) ∨
    ((∀ j x, j < n → ¬Repeated res n j x) ∧ wMass n res = ok (.fin 0)) := by
  have key : ∀ m, m ≤ n → (∃ j x, j < m ∧ Repeated res n j x ∧ (∀ i y, j < i → i < m → ¬Repeated res n i y) ∧
      searchW res n m = ok (.fin x)) ∨
      ((∀ j x, j < m → ¬Repeated res n j x) ∧ searchW res n m = ok (.fin 0)) := by
    intro m
    induction m with
    | zero => intro _; exact .inr ⟨fun j x hj => absurd hj (by omega), rfl⟩
    | succ m ih =>
      intro hm
      by_cases hr : nrepeat res n (res.getD m .nan) > 1
      · obtain ⟨x, hx⟩ := (nrepeat_gt res n m (by omega)).1 hr
        refine .inl ⟨m, x, by omega, hx, fun i y h1 h2 => by omega, ?_⟩
        rw [searchW]
        rw [if_pos hr, (getD_fin _ _ _).2 hx.1]
      · have no : ∀ x, ¬Repeated res n m x := fun x hx => hr ((nrepeat_gt res n m (by omega)).2 ⟨x, hx⟩)
        have e : searchW res n (m + 1) = searchW res n m := by
          rw [searchW]
          rw [if_neg hr]
        rw [e]
        rcases ih (by omega) with ⟨j, x, h1, h2, h3, h4⟩ | ⟨h1, h2⟩
        · refine .inl ⟨j, x, by omega, h2, fun i y a b => ?_, h4⟩
          rcases Nat.lt_succ_iff_lt_or_eq.1 b with b | rfl
          · exact h3 i y a b
          · exact no y
        · refine .inr ⟨fun j x hj => ?_, h2⟩
          rcases Nat.lt_succ_iff_lt_or_eq.1 hj with b | rfl
          · exact h1 j x b
          · exact no x
  rw [wMass, if_neg (by omega)]
  exact key n (le_refl _)

/-- C128: in a vacuum that conserves the electric charge, with the photon, the two W bosons and the Z boson in this
order, the mass found is that of the W boson if the Z boson is heavier by more than 10⁻⁵, and otherwise that of the
Z boson, which differs from it by at most 10⁻⁵. -/
theorem C128_w_neutral (p w z : K) (h1 : p ≤ w) (h2 : w ≤ z) :
    wMass 4 [.fin p, .fin w, .fin w, .fin z] = ok (.fin (if 1 / 10 ^ 5 < z - w then w else z)) ∧
    |(if 1 / 10 ^ 5 < z - w then w else z) - w| ≤ 1 / 10 ^ 5 := by
  have hpos : (0 : K) ≤ 1 / 10 ^ 5 := by positivity
  refine ⟨?_, ?_⟩
  swap
  · split
    · rw [sub_self, abs_zero]; exact hpos
    · rename_i h
      rw [abs_of_nonneg (by linarith)]
      exact not_lt.1 h
  have get : ∀ i y, ([Flt.fin p, .fin w, .fin w, .fin z] : List (Flt K))[i]? = some (.fin y) →
      (i = 0 ∧ y = p) ∨ (i = 1 ∧ y = w) ∨ (i = 2 ∧ y = w) ∨ (i = 3 ∧ y = z) := by
    intro i y h
    match i, h with
    | 0, h => exact .inl ⟨rfl, (Flt.fin.inj (Option.some.inj h)).symm⟩
    | 1, h => exact .inr (.inl ⟨rfl, (Flt.fin.inj (Option.some.inj h)).symm⟩)
    | 2, h => exact .inr (.inr (.inl ⟨rfl, (Flt.fin.inj (Option.some.inj h)).symm⟩))
    | 3, h => exact .inr (.inr (.inr ⟨rfl, (Flt.fin.inj (Option.some.inj h)).symm⟩))
    | i + 4, h => cases h
  have r2 : Repeated [Flt.fin p, .fin w, .fin w, .fin z] 4 2 w :=
    ⟨rfl, 1, w, by omega, by omega, rfl, by rw [sub_self, abs_zero]; exact hpos⟩
  have r3 : Repeated [Flt.fin p, .fin w, .fin w, .fin z] 4 3 z ↔ z - w ≤ 1 / 10 ^ 5 := by
    constructor
    · rintro ⟨-, i, y, hi, hne, hy, h⟩
      rw [abs_le] at h
      rcases get i y hy with ⟨-, rfl⟩ | ⟨-, rfl⟩ | ⟨-, rfl⟩ | ⟨rfl, -⟩
      · linarith
      · linarith
      · linarith
      · exact absurd rfl hne
    · intro h
      exact ⟨rfl, 2, w, by omega, by omega, rfl, by rw [abs_of_nonneg (by linarith)]; exact h⟩
  rcases C128_w 4 [Flt.fin p, .fin w, .fin w, .fin z] (by simp) with ⟨j, x, hj, hr, hmax, he⟩ | ⟨hno, -⟩
  · rw [he]
    have hj2 : 2 ≤ j := by
      by_contra hlt
      exact hmax 2 w (by omega) (by omega) r2
    by_cases hz : z - w ≤ 1 / 10 ^ 5
    · rw [if_neg (not_lt.2 hz)]
      have : j = 3 := by
        by_contra hne
        exact hmax 3 z (by omega) (by omega) (r3.2 hz)
      subst this
      rcases get 3 x hr.1 with ⟨h, -⟩ | ⟨h, -⟩ | ⟨h, -⟩ | ⟨-, rfl⟩ <;> first | omega | rfl
    · rw [if_pos (not_le.1 hz)]
      have : j = 2 := by
        by_contra hne
        have : j = 3 := by omega
        subst this
        rcases get 3 x hr.1 with ⟨h, -⟩ | ⟨h, -⟩ | ⟨h, -⟩ | ⟨-, rfl⟩
        · omega
        · omega
        · omega
        · exact hz (r3.1 hr)
      subst this
      rcases get 2 x hr.1 with ⟨h, -⟩ | ⟨h, -⟩ | ⟨-, rfl⟩ | ⟨h, -⟩ <;> first | omega | rfl
  · exact absurd r2 (hno 2 w (by omega))

/-- C128 is false of the code in a vacuum that breaks the electric charge: the W bosons then have different masses,
and the mass found is zero. -/
theorem C128_charge_breaking_fails :
    wMass 4 [Flt.fin (1 : ℚ), .fin 2, .fin 3, .fin 4] = ok (.fin 0) := by decide +kernel

/-- C128 is false of the code for masses that are not numbers: the check for them is never reached, since `NaN` is
not even close to itself. -/
theorem C128_nan_fails (n : ℕ) : wMass n (List.replicate n (.nan : Flt K)) = ok (.fin 0) := by
  rcases C128_w n (List.replicate n (.nan : Flt K)) (by simp) with ⟨j, x, hj, hr, -, -⟩ | ⟨-, h⟩
  · have := hr.1
    rw [List.getElem?_replicate, if_pos hj] at this
    cases this
  · exact h

theorem topLoop_ok (nq : ℕ) (quarks : ℕ → List (Flt K)) (is : List ℕ) (m : Flt K) (ds : List (Flt K))
    (hm : m ≠ .fin (-1)) (f : ℕ → Flt K) (hf : ∀ i ∈ is, (quarks i)[2 * nq - 1]? = some (f i)) :
    topLoop nq quarks is m ds = ok (m, ds ++ is.map f) := by
  induction is generalizing ds with
  | nil => rw [topLoop]; simp
  | cons i is ih =>
    rw [topLoop, if_neg hm, bind_ok]
    have : at' (quarks i) (2 * nq - 1) = ok (f i) := by rw [at', hf i (by simp)]
    rw [this, bind_ok, ih _ fun j hj => hf j (by simp [hj])]
    simp

theorem nanCheck_eq (ds : List (Flt K)) : nanCheck ds = if .nan ∈ ds then err .runtime else ok () := by
  induction ds with
  | nil => rfl
  | cons d ds ih => cases d <;> simp [nanCheck, ih]

/-- C128: for at least one field, with the squared masses of the quarks in increasing order followed by their
derivatives, the result is the last squared mass, which is the largest, and its derivatives with respect to all fields, in the order of
the fields.  If one of these numbers is not a number, there is an exception. -/
theorem C128_top (nq nh : ℕ) (hh : nh ≠ 0) (quarks : ℕ → List (Flt K)) (m : Flt K) (f : ℕ → Flt K)
    (hm : (quarks 1)[nq - 1]? = some m) (hm1 : m ≠ .fin (-1))
    (hf : ∀ i, 1 ≤ i → i ≤ nh → (quarks i)[2 * nq - 1]? = some (f i)) :
    topMass nq nh quarks =
      if .nan ∈ m :: (List.range nh).map (fun i => f (i + 1)) then err .runtime
      else ok (m :: (List.range nh).map fun i => f (i + 1)) := by
  obtain ⟨k, rfl⟩ : ∃ k, nh = k + 1 := ⟨nh - 1, by omega⟩
  have h1 : at' (quarks 1) (nq - 1) = ok m := by rw [at', hm]
  have h2 : at' (quarks 1) (2 * nq - 1) = ok (f 1) := by rw [at', hf 1 (by omega) (by omega)]
  have e : topLoop nq quarks ((List.range (k + 1)).map (· + 1)) (.fin (-1)) [] =
      ok (m, (List.range (k + 1)).map fun i => f (i + 1)) := by
    rw [List.range_succ_eq_map, List.map_cons, topLoop, if_pos rfl, h1, bind_ok, h2, bind_ok,
      topLoop_ok nq quarks _ m _ hm1 f]
    · simp [Function.comp_def]
    · intro i hi
      simp only [List.map_map, List.mem_map, List.mem_range, Function.comp_apply] at hi
      obtain ⟨a, ha, rfl⟩ := hi
      exact hf _ (by omega) (by omega)
  rw [topMass, e, bind_ok]
  dsimp only
  rw [nanCheck_eq]
  split <;> rfl

/-- C128: a list of masses that is too short is an exception. -/
theorem C128_short (nq nh : ℕ) (hh : nh ≠ 0) (quarks : ℕ → List (Flt K))
    (h : (quarks 1).length ≤ nq - 1) : topMass nq nh quarks = err .outOfRange := by
  obtain ⟨k, rfl⟩ : ∃ k, nh = k + 1 := ⟨nh - 1, by omega⟩
  have h1 : at' (quarks 1) (nq - 1) = err .outOfRange := by rw [at', List.getElem?_eq_none h]
  rw [topMass, List.range_succ_eq_map, List.map_cons, topLoop, if_pos rfl, h1]
  rfl

/-- So does a list of masses that is shorter than the number of gauge bosons. -/
theorem C128_w_short (n : ℕ) (res : List (Flt K)) (h : res.length < n) : wMass n res = err .outOfRange := if_pos h

/-- Hypotheses of the theorems. -/
example : wMass 4 [Flt.fin (0 : ℚ), .fin 6400, .fin 6400, .fin 8300] = ok (.fin 6400) ∧
    topMass 2 2 (fun i => if i = 1 then [Flt.fin (1 : ℚ), .fin 29756, .fin 3, .fin 4]
      else [Flt.fin (1 : ℚ), .fin 29756, .fin 5, .fin 6]) = ok [.fin 29756, .fin 4, .fin 6] ∧
    ((0 : ℚ) ≤ 6400 ∧ (6400 : ℚ) ≤ 8300) := by
  refine ⟨by decide +kernel, by decide +kernel, by norm_num, by norm_num⟩

end Verif.Fh
