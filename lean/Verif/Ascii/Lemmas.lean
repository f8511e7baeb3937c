import Verif.Ascii.Model
import Verif.Ascii.Spec
import Mathlib.Tactic.Ring
import Mathlib.Tactic.Linarith
import Mathlib.Tactic.FieldSimp
import Mathlib.Tactic.Positivity
import Mathlib.Tactic.Push
import Mathlib.Tactic.LinearCombination

/-!
# Lemmas about the plots
-/

set_option linter.unusedSectionVars false

namespace Verif.Ascii

open Verif Verif.Outcome Spec

variable {K : Type} [Field K] [LinearOrder K] [IsStrictOrderedRing K]

theorem lt_of_index {xs : List K} (h : xs.Pairwise (· < ·)) {i j : Nat} {x y : K} (hi : xs[i]? = some x)
    (hj : xs[j]? = some y) (hij : i < j) : x < y := by
  obtain ⟨h1, rfl⟩ := List.getElem?_eq_some_iff.1 hi
  obtain ⟨h2, rfl⟩ := List.getElem?_eq_some_iff.1 hj
  exact List.pairwise_iff_getElem.1 h i j h1 h2 hij

theorem onPolygon_unique {xs ys : List K} (h : xs.Pairwise (· < ·)) {x y y' : K} (h1 : OnPolygon xs ys x y)
    (h2 : OnPolygon xs ys x y') : y = y' := by
  obtain ⟨i, x1, x2, y1, y2, a1, a2, a3, a4, a5, a6, a7⟩ := h1
  obtain ⟨j, u1, u2, v1, v2, b1, b2, b3, b4, b5, b6, b7⟩ := h2
  have hx := lt_of_index h a1 a2 (by omega)
  have hu := lt_of_index h b1 b2 (by omega)
  rcases Nat.lt_trichotomy i j with hij | hij | hij
  · rcases Nat.lt_or_ge (i + 1) j with hlt | hge
    · have := lt_of_index h a2 b1 hlt
      exact absurd (lt_of_le_of_lt a6 this) (not_lt.2 b5)
    · obtain rfl : j = i + 1 := by omega
      rw [a2] at b1; rw [a4] at b3
      obtain rfl := Option.some.inj b1
      obtain rfl := Option.some.inj b3
      obtain rfl : x = x2 := le_antisymm a6 b5
      have e1 : y = y2 := by
        have : (y - y2) * (x - x1) = 0 := by linear_combination a7
        rcases mul_eq_zero.1 this with e | e
        · linarith
        · linarith
      have e2 : y' = y2 := by
        have : (y' - y2) * (u2 - x) = 0 := by linear_combination b7
        rcases mul_eq_zero.1 this with e | e
        · linarith
        · linarith
      rw [e1, e2]
  · subst hij
    rw [a1] at b1; rw [a2] at b2; rw [a3] at b3; rw [a4] at b4
    obtain rfl := Option.some.inj b1
    obtain rfl := Option.some.inj b2
    obtain rfl := Option.some.inj b3
    obtain rfl := Option.some.inj b4
    have : (y - y') * (x2 - x1) = 0 := by linear_combination a7 - b7
    rcases mul_eq_zero.1 this with e | e
    · linarith
    · linarith
  · rcases Nat.lt_or_ge (j + 1) i with hlt | hge
    · have := lt_of_index h b2 a1 hlt
      exact absurd (lt_of_le_of_lt b6 this) (not_lt.2 a5)
    · obtain rfl : i = j + 1 := by omega
      rw [b2] at a1; rw [b4] at a3
      obtain rfl := Option.some.inj a1
      obtain rfl := Option.some.inj a3
      obtain rfl : x = u2 := le_antisymm b6 a5
      have e1 : y' = v2 := by
        have : (y' - v2) * (x - u1) = 0 := by linear_combination b7
        rcases mul_eq_zero.1 this with e | e
        · linarith
        · linarith
      have e2 : y = v2 := by
        have : (y - v2) * (x2 - x) = 0 := by linear_combination a7
        rcases mul_eq_zero.1 this with e | e
        · linarith
        · linarith
      rw [e1, e2]

theorem onPolygon_range {xs ys : List K} (h : xs.Pairwise (· < ·)) {x y lo hi : K} (h1 : OnPolygon xs ys x y)
    (hr : ∀ v ∈ ys, lo ≤ v ∧ v ≤ hi) : lo ≤ y ∧ y ≤ hi := by
  obtain ⟨i, x1, x2, y1, y2, a1, a2, a3, a4, a5, a6, a7⟩ := h1
  have hx := lt_of_index h a1 a2 (by omega)
  have m1 := hr y1 (List.mem_of_getElem? a3)
  have m2 := hr y2 (List.mem_of_getElem? a4)
  have hp : 0 < x2 - x1 := by linarith
  constructor
  · by_contra hc
    push Not at hc
    have k1 : (y - lo) * (x2 - x1) < 0 := mul_neg_of_neg_of_pos (by linarith) hp
    have k2 : 0 ≤ (y1 - lo) * (x2 - x) := mul_nonneg (by linarith) (by linarith)
    have k3 : 0 ≤ (y2 - lo) * (x - x1) := mul_nonneg (by linarith) (by linarith)
    have : (y - lo) * (x2 - x1) = (y1 - lo) * (x2 - x) + (y2 - lo) * (x - x1) := by linear_combination a7
    linarith
  · by_contra hc
    push Not at hc
    have k1 : (hi - y) * (x2 - x1) < 0 := mul_neg_of_neg_of_pos (by linarith) hp
    have k2 : 0 ≤ (hi - y1) * (x2 - x) := mul_nonneg (by linarith) (by linarith)
    have k3 : 0 ≤ (hi - y2) * (x - x1) := mul_nonneg (by linarith) (by linarith)
    have : (hi - y) * (x2 - x1) = (hi - y1) * (x2 - x) + (hi - y2) * (x - x1) := by linear_combination -a7
    linarith

/-- A point of the range lies in one of the intervals. -/
theorem exists_bin (xs : List K) (x front back : K) (hf : xs.head? = some front) (hb : xs.getLast? = some back)
    (h2 : 2 ≤ xs.length) (h : front ≤ x) (h' : x ≤ back) :
    ∃ (i : Nat) (a b : K), i < xs.length - 1 ∧ xs[i]? = some a ∧ xs[i + 1]? = some b ∧ a ≤ x ∧ x ≤ b := by
  induction xs generalizing front with
  | nil => simp at h2
  | cons u r ih =>
    cases r with
    | nil => simp at h2
    | cons v r =>
      simp only [List.head?_cons, Option.some.injEq] at hf
      subst hf
      by_cases hv : x ≤ v
      · exact ⟨0, u, v, by simp, rfl, rfl, h, hv⟩
      · push Not at hv
        cases r with
        | nil =>
          simp at hb
          subst hb
          exact absurd h' (not_le.2 hv)
        | cons w r =>
          obtain ⟨i, a, b, c1, c2, c3, c4, c5⟩ := ih v rfl (by simpa using hb) (by simp) hv.le
          exact ⟨i + 1, a, b, by simp at c1 ⊢; omega, by simpa using c2, by simpa using c3, c4, c5⟩

theorem binOf_spec (xs : List K) (x front back : K) (hf : xs.head? = some front) (hb : xs.getLast? = some back)
    (h2 : 2 ≤ xs.length) (h : front ≤ x) (h' : x ≤ back) :
    ∃ (i : Nat) (a b : K), binOf xs x = some i ∧ xs[i]? = some a ∧ xs[i + 1]? = some b ∧ a ≤ x ∧ x ≤ b := by
  obtain ⟨i, a, b, c1, c2, c3, c4, c5⟩ := exists_bin xs x front back hf hb h2 h h'
  unfold binOf
  cases hfind : List.find? (fun i => match xs[i]?, xs[i + 1]? with
    | some a, some b => decide (x ≥ a) && decide (x ≤ b)
    | _, _ => false) (List.range (xs.length - 1)) with
  | none =>
    have := List.find?_eq_none.1 hfind i (List.mem_range.2 c1)
    simp [c2, c3, c4, c5] at this
  | some k =>
    have hk := List.find?_some hfind
    cases ha : xs[k]? with
    | none => simp [ha] at hk
    | some a' =>
      cases hb' : xs[k + 1]? with
      | none => simp [ha, hb'] at hk
      | some b' =>
        simp only [ha, hb', Bool.and_eq_true, decide_eq_true_eq] at hk
        exact ⟨k, a', b', rfl, ha, hb', hk.1, hk.2⟩

theorem columnX_range {front back : K} (h : front ≤ back) {n k : Nat} (hn : 2 ≤ n) (hk : k < n) :
    front ≤ (k : K) / ((n : K) - 1) * (back - front) + front ∧
      (k : K) / ((n : K) - 1) * (back - front) + front ≤ back := by
  have hn' : (2 : K) ≤ n := by exact_mod_cast hn
  have hk' : (k : K) + 1 ≤ n := by exact_mod_cast hk
  have hp : (0 : K) < (n : K) - 1 := by linarith
  have h0 : (0 : K) ≤ (k : K) / ((n : K) - 1) := div_nonneg (Nat.cast_nonneg k) hp.le
  have h1 : (k : K) / ((n : K) - 1) ≤ 1 := (div_le_one hp).2 (by linarith)
  have hd : 0 ≤ back - front := by linarith
  constructor
  · have := mul_nonneg h0 hd
    linarith
  · have := mul_le_mul_of_nonneg_right h1 hd
    linarith

theorem newValue_spec {xs ys : List K} (g : Good xs ys) {front back : K} (hf : xs.head? = some front)
    (hb : xs.getLast? = some back) (hfb : front ≤ back) {n k : Nat} (hn : 2 ≤ n) (hk : k < n) :
    ∃ y, newValue xs ys front back n k = ok (.fin y) ∧ OnPolygon xs ys (columnX front back n k) y := by
  obtain ⟨r1, r2⟩ := columnX_range hfb hn hk
  obtain ⟨i, a, b, c1, c2, c3, c4, c5⟩ := binOf_spec xs _ front back hf hb g.two r1 r2
  have hi : i + 1 < xs.length := (List.getElem?_eq_some_iff.1 c3).1
  have hs := g.same
  have hab := lt_of_index g.incr c2 c3 (by omega)
  have e1 : ys[i]? = some (ys[i]'(by omega)) := List.getElem?_eq_getElem _
  have e2 : ys[i + 1]? = some (ys[i + 1]'(by omega)) := List.getElem?_eq_getElem _
  have hne : b - a ≠ 0 := by intro h; linarith
  have hx : columnX front back n k = (k : K) / ((n : K) - 1) * (back - front) + front := by
    rw [columnX, if_neg (by omega)]
    push_cast
    ring
  refine ⟨ys[i]'(by omega) + (ys[i + 1]'(by omega) - ys[i]'(by omega)) *
    ((k : K) / ((n : K) - 1) * (back - front) + front - a) / (b - a), ?_, i, a, b, _, _, c2, c3, e1, e2, ?_, ?_, ?_⟩
  · rw [newValue, if_neg (by omega)]
    simp only [c1, idx, c2, c3, e1, e2, bind_ok, if_neg hne]
  · rw [hx]; exact c4
  · rw [hx]; exact c5
  · rw [hx]
    generalize (k : K) / ((n : K) - 1) * (back - front) + front = x
    rw [add_sub_cancel_left, div_mul_cancel₀ _ hne]

theorem front_lt_back {xs : List K} (h : xs.Pairwise (· < ·)) (h2 : 2 ≤ xs.length) {front back : K}
    (hf : xs.head? = some front) (hb : xs.getLast? = some back) : front < back := by
  rw [List.head?_eq_getElem?] at hf
  rw [List.getLast?_eq_getElem?] at hb
  exact lt_of_index h hf hb (by omega)

/-- The values `resample` gives. -/
theorem resample_spec {xs ys : List K} (g : Good xs ys) {front back : K} (hf : xs.head? = some front)
    (hb : xs.getLast? = some back) {n : Nat} (hn : 1 ≤ n) (heq : ys.length = n → Equidistant xs) :
    ∃ vs : List K, resample xs ys (n : Int) = ok (vs.map Flt.fin) ∧ vs.length = n ∧
      ∀ (k : Nat) (y : K), vs[k]? = some y → OnPolygon xs ys (columnX front back n k) y := by
  have hfb := front_lt_back g.incr g.two hf hb
  have h2 := g.two
  have hs := g.same
  have hf' := hf
  have hb' := hb
  rw [List.head?_eq_getElem?] at hf'
  rw [List.getLast?_eq_getElem?] at hb'
  have hneg : ¬ ((n : Int) < 0) := by omega
  by_cases hl : ys.length = n
  · refine ⟨ys, by simp [resample, hl], hl, ?_⟩
    intro k y hy
    obtain ⟨a, d, had⟩ := heq hl
    have hk : k < ys.length := (List.getElem?_eq_some_iff.1 hy).1
    have ea := had 0 front hf'
    have eb := had _ back hb'
    have hcast : ((xs.length - 1 : Nat) : K) = (n : K) - 1 := by
      rw [Nat.cast_sub (by omega)]; rw [← hs, hl]; simp
    have hn1 : (0 : K) < (n : K) - 1 := by
      have : (2 : K) ≤ n := by rw [← hl, hs]; exact_mod_cast h2
      linarith
    have hx : columnX front back n k = a + k * d := by
      rw [columnX, if_neg (by omega)]
      rw [hcast] at eb
      rw [ea, eb]
      push_cast
      field_simp
      ring
    rw [hx]
    have hkx : xs[k]? = some (a + k * d) := by
      have := List.getElem?_eq_getElem (l := xs) (i := k) (by omega)
      rw [this, ← had k _ this]
    rcases Nat.lt_or_ge (k + 1) xs.length with hlt | hge
    · have e := List.getElem?_eq_getElem (l := xs) (i := k + 1) hlt
      have e2 := List.getElem?_eq_getElem (l := ys) (i := k + 1) (by omega)
      exact ⟨k, _, _, _, _, hkx, e, hy, e2, le_refl _, (lt_of_index g.incr hkx e (by omega)).le, by ring⟩
    · obtain ⟨m, rfl⟩ : ∃ m, k = m + 1 := ⟨k - 1, by omega⟩
      have e := List.getElem?_eq_getElem (l := xs) (i := m) (by omega)
      have e2 := List.getElem?_eq_getElem (l := ys) (i := m) (by omega)
      exact ⟨m, _, _, _, _, e, hkx, e2, hy, (lt_of_index g.incr e hkx (by omega)).le, le_refl _, rfl⟩
  · have e0 := List.getElem?_eq_getElem (l := ys) (i := 0) (by omega)
    have e1 := List.getElem?_eq_getElem (l := ys) (i := ys.length - 1) (by omega)
    have efirst : OnPolygon xs ys front (ys[0]'(by omega)) := by
      have ex := List.getElem?_eq_getElem (l := xs) (i := 1) (by omega)
      have ey := List.getElem?_eq_getElem (l := ys) (i := 1) (by omega)
      exact ⟨0, _, _, _, _, hf', ex, e0, ey, le_refl _, (lt_of_index g.incr hf' ex (by omega)).le, by ring⟩
    have elast : OnPolygon xs ys back (ys[ys.length - 1]'(by omega)) := by
      have ex := List.getElem?_eq_getElem (l := xs) (i := xs.length - 2) (by omega)
      have ey := List.getElem?_eq_getElem (l := ys) (i := xs.length - 2) (by omega)
      have h3 : xs.length - 1 = xs.length - 2 + 1 := by omega
      rw [h3] at hb'
      have e1' : ys[xs.length - 2 + 1]? = some (ys[ys.length - 1]'(by omega)) := by
        rw [← e1]; congr 1; omega
      exact ⟨_, _, _, _, _, ex, hb', ey, e1', (lt_of_index g.incr ex hb' (by omega)).le, le_refl _, rfl⟩
    -- the values in between
    have hmid : ∃ ws : List K, (List.range n).mapM (newValue xs ys front back n) = ok (ws.map Flt.fin) ∧
        ws.length = n ∧ (2 ≤ n → ∀ (k : Nat) (y : K), ws[k]? = some y →
          OnPolygon xs ys (columnX front back n k) y) := by
      rcases Nat.lt_or_ge n 2 with h1 | h1
      · obtain rfl : n = 1 := by omega
        refine ⟨[0], ?_, rfl, fun h => by omega⟩
        rw [mapM_ok (g := fun _ => Flt.fin 0) (fun a _ => by simp [newValue])]
        simp
      · have hch : ∀ k : Nat, ∃ y, k < n → newValue xs ys front back n k = ok (.fin y) ∧
            OnPolygon xs ys (columnX front back n k) y := fun k => by
          by_cases hk : k < n
          · obtain ⟨y, hy⟩ := newValue_spec g hf hb hfb.le h1 hk
            exact ⟨y, fun _ => hy⟩
          · exact ⟨0, fun h => absurd h hk⟩
        choose w hw using hch
        refine ⟨(List.range n).map w, ?_, by simp, ?_⟩
        · rw [mapM_ok (g := fun k => Flt.fin (w k)) (fun k hk => (hw k (List.mem_range.1 hk)).1)]
          simp [Function.comp_def]
        · intro _ k y hy
          simp only [List.getElem?_map, Option.map_eq_some_iff] at hy
          obtain ⟨m, hm, rfl⟩ := hy
          obtain ⟨hm1, hm2⟩ := List.getElem?_eq_some_iff.1 hm
          simp at hm1 hm2
          subst hm2
          exact (hw k hm1).2
    obtain ⟨ws, w1, w2, w3⟩ := hmid
    refine ⟨(ws.set 0 (ys[0]'(by omega))).set (n - 1) (ys[ys.length - 1]'(by omega)), ?_, by simp [w2], ?_⟩
    · simp only [resample, hneg, if_false, Int.toNat_natCast, hl, hf, hb, w1, bind_ok,
        if_neg (show n ≠ 0 by omega), idx, e0, e1, List.map_set]
    · intro k y hy
      rw [List.getElem?_set] at hy
      by_cases hk1 : n - 1 = k
      · rw [if_pos hk1] at hy
        simp [w2] at hy
        obtain ⟨_, rfl⟩ := hy
        have : columnX front back n k = back := by
          rw [columnX]
          split
          · rfl
          · rename_i hne
            have hn1 : ((n : Int) : K) - 1 ≠ 0 := by
              intro h0
              have : (n : K) = 1 := by push_cast at h0; linarith
              exact hne (by exact_mod_cast this)
            have hkc : ((k : Int) : K) = ((n : Int) : K) - 1 := by
              rw [← hk1]; push_cast [Nat.cast_sub hn]; ring
            rw [hkc, div_self hn1]; ring
        rw [this]; exact elast
      · rw [if_neg hk1, List.getElem?_set] at hy
        by_cases hk0 : 0 = k
        · rw [if_pos hk0] at hy
          subst hk0
          simp [w2] at hy
          obtain ⟨_, rfl⟩ := hy
          have : columnX front back n (0 : Nat) = front := by
            rw [columnX, if_neg (by omega)]; simp
          rw [this]; exact efirst
        · rw [if_neg hk0] at hy
          have hkn : k < ws.length := (List.getElem?_eq_some_iff.1 hy).1
          exact w3 (by omega) k y hy

end Verif.Ascii
