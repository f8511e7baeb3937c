import Verif.Ascii.Lemmas

/-!
# Lemmas about drawing and about the ranges
-/

set_option linter.unusedSectionVars false

namespace Verif.Ascii

open Verif Verif.Outcome Spec

variable {K : Type} [Field K] [LinearOrder K] [IsStrictOrderedRing K]

theorem isRow_unique {h : Int} {lo hi y : K} (hlt : lo < hi) {r r' : Int} (h1 : IsRow h lo hi y r)
    (h2 : IsRow h lo hi y r') : r = r' := by
  have key : ∀ {r r' : Int}, IsRow h lo hi y r → IsRow h lo hi y r' → r ≤ r' := by
    intro r r' h1 h2
    obtain ⟨a1, a2, a3, a4⟩ := h1
    obtain ⟨b1, b2, b3, b4⟩ := h2
    rcases b4 with b4 | ⟨b4, _⟩
    · have : (r : K) * (hi - lo) < ((r' : K) + 1) * (hi - lo) := lt_of_le_of_lt a3 b4
      have : (r : K) < (r' : K) + 1 := lt_of_mul_lt_mul_right this (by linarith)
      have : r < r' + 1 := by exact_mod_cast this
      omega
    · omega
  exact le_antisymm (key h1 h2) (key h2 h1)

variable [FloorRing K]

theorem cellOf_spec {h : Int} (hh : 1 ≤ h) {lo hi y : K} (hlt : lo < hi) (h1 : lo ≤ y) (h2 : y ≤ hi) :
    ∃ r, cellOf lo hi h (.fin y) = ok r ∧ IsRow h lo hi y r := by
  have hd : (0 : K) < hi - lo := by linarith
  have hhK : (1 : K) ≤ (h : K) := by exact_mod_cast hh
  have ht : mapTo y lo hi 0 (h : K) = (y - lo) * h / (hi - lo) := by simp [mapTo]
  have ht0 : 0 ≤ (y - lo) * h / (hi - lo) := div_nonneg (mul_nonneg (by linarith) (by linarith)) hd.le
  refine ⟨min (max 0 ⌊(y - lo) * h / (hi - lo)⌋) (h - 1), ?_, ?_⟩
  · rw [cellOf, if_neg hd.ne', ht, toInt, if_pos ht0]
  · have hf0 : 0 ≤ ⌊(y - lo) * h / (hi - lo)⌋ := Int.floor_nonneg.2 ht0
    have hfl := Int.floor_le ((y - lo) * h / (hi - lo))
    have hfu := Int.lt_floor_add_one ((y - lo) * h / (hi - lo))
    rw [le_div_iff₀ hd] at hfl
    rw [div_lt_iff₀ hd] at hfu
    rw [max_eq_right hf0]
    rcases le_or_gt ⌊(y - lo) * h / (hi - lo)⌋ (h - 1) with hle | hgt
    · rw [min_eq_left hle]
      exact ⟨hf0, by omega, hfl, Or.inl hfu⟩
    · rw [min_eq_right hgt.le]
      have hge : (h : K) ≤ (⌊(y - lo) * h / (hi - lo)⌋ : K) := by
        have : h ≤ ⌊(y - lo) * h / (hi - lo)⌋ := by omega
        exact_mod_cast this
      have h3 : (h : K) * (hi - lo) ≤ (y - lo) * h :=
        le_trans (mul_le_mul_of_nonneg_right hge hd.le) hfl
      have h4 : hi - lo ≤ y - lo := by
        by_contra hc
        push Not at hc
        have := mul_lt_mul_of_pos_right hc (show (0 : K) < h by linarith)
        linarith
      have h5 : y = hi := by linarith
      refine ⟨by omega, by omega, ?_, Or.inr ⟨by ring, h5⟩⟩
      push_cast
      rw [h5]
      nlinarith

theorem drawValues_spec {w h : Int} (hh : 1 ≤ h) {lo hi : K} (hlt : lo < hi) (m : Char) (vs : List K) (col : Int)
    (p : Plane) (h0 : 0 ≤ col) (hw : col + vs.length ≤ w) (hv : ∀ v ∈ vs, lo ≤ v ∧ v ≤ hi) :
    ∃ p', drawValues w h lo hi m (vs.map Flt.fin) col p = ok p' ∧ ∀ j r : Int,
      ((∃ (k : Nat) (y : K), vs[k]? = some y ∧ j = col + k ∧ IsRow h lo hi y r) → p' j r = m) ∧
      ((¬ ∃ (k : Nat) (y : K), vs[k]? = some y ∧ j = col + k ∧ IsRow h lo hi y r) → p' j r = p j r) := by
  induction vs generalizing col p with
  | nil => exact ⟨p, rfl, fun j r => ⟨fun ⟨k, y, hk, _⟩ => by simp at hk, fun _ => rfl⟩⟩
  | cons v vs ih =>
    have hv0 := hv v (by simp)
    obtain ⟨r0, c1, c2⟩ := cellOf_spec hh hlt hv0.1 hv0.2
    have hw' : col + 1 + vs.length ≤ w := by
      simp only [List.length_cons, Nat.cast_add, Nat.cast_one] at hw; omega
    obtain ⟨p', d1, d2⟩ := ih (col + 1) (fun i j => if i = col ∧ j = r0 then m else p i j) (by omega) hw'
      (fun x hx => hv x (by simp [hx]))
    have hin : 0 ≤ col ∧ col < w ∧ 0 ≤ r0 ∧ r0 < h := ⟨h0, by omega, c2.1, c2.2.1⟩
    refine ⟨p', ?_, ?_⟩
    · simp only [List.map_cons, drawValues, c1, bind_ok, write, if_pos hin, d1]
    · intro j r
      constructor
      · rintro ⟨k, y, hk, hj, hr⟩
        cases k with
        | zero =>
          simp at hk
          subst hk
          have hrr := isRow_unique hlt hr c2
          rw [(d2 j r).2]
          · simp [hrr, hj]
          · rintro ⟨k, y, _, hj', _⟩
            simp at hj
            omega
        | succ k =>
          exact (d2 j r).1 ⟨k, y, by simpa using hk, by push_cast at hj; omega, hr⟩
      · intro hn
        rw [(d2 j r).2]
        · rw [if_neg]
          rintro ⟨rfl, rfl⟩
          exact hn ⟨0, v, by simp, by simp, c2⟩
        · rintro ⟨k, y, hk, hj, hr⟩
          exact hn ⟨k + 1, y, by simpa using hk, by push_cast; omega, hr⟩

/-- The columns left for a curve. -/
theorem columns {w : Int} (hw : 1 ≤ w) {xlo xhi front back : K} (h1 : xlo ≤ front) (h2 : front < back)
    (h3 : back ≤ xhi) :
    0 ≤ before w xlo xhi front ∧ 0 ≤ after w xlo xhi back ∧
      1 ≤ w - before w xlo xhi front - after w xlo xhi back := by
  have hd : (0 : K) < xhi - xlo := by linarith
  have hwK : (1 : K) ≤ (w : K) := by exact_mod_cast hw
  refine ⟨Int.floor_nonneg.2 (div_nonneg (mul_nonneg (by linarith) (by linarith)) hd.le),
    Int.floor_nonneg.2 (div_nonneg (mul_nonneg (by linarith) (by linarith)) hd.le), ?_⟩
  have f1 := Int.floor_le ((w : K) * (front - xlo) / (xhi - xlo))
  have f2 := Int.floor_le ((w : K) * (xhi - back) / (xhi - xlo))
  have hs : (w : K) * (front - xlo) / (xhi - xlo) + (w : K) * (xhi - back) / (xhi - xlo) < w := by
    rw [← add_div, div_lt_iff₀ hd]
    have := mul_pos (show (0 : K) < w by linarith) (show 0 < back - front by linarith)
    nlinarith
  have : ((before w xlo xhi front + after w xlo xhi back : Int) : K) < (w : K) := by
    unfold before after
    push_cast
    linarith
  have : before w xlo xhi front + after w xlo xhi back < w := by exact_mod_cast this
  omega

theorem drawCurve_spec {w h : Int} (hw : 1 ≤ w) (hh : 1 ≤ h) {xlo xhi ylo yhi : K} (hy : ylo < yhi) (p : Plane)
    (c : Curve K) (g : Good c.xs c.ys) (heq : Equidistant c.xs ∨ w < c.xs.length)
    (hx1 : ∀ a, c.xs.head? = some a → xlo ≤ a) (hx2 : ∀ a, c.xs.getLast? = some a → a ≤ xhi)
    (hv : ∀ v ∈ c.ys, ylo ≤ v ∧ v ≤ yhi) :
    ∃ p', drawCurve w h xlo xhi ylo yhi p c = ok p' ∧ ∀ j r : Int,
      (Draws w h xlo xhi ylo yhi c.xs c.ys j r → p' j r = c.marker) ∧
      (¬ Draws w h xlo xhi ylo yhi c.xs c.ys j r → p' j r = p j r) := by
  have h2 := g.two
  have hne : c.xs ≠ [] := by intro h; simp [h] at h2
  obtain ⟨front, hf⟩ : ∃ a, c.xs.head? = some a := ⟨_, List.head?_eq_some_head hne⟩
  obtain ⟨back, hb⟩ : ∃ a, c.xs.getLast? = some a := ⟨_, List.getLast?_eq_some_getLast hne⟩
  have hfb := front_lt_back g.incr g.two hf hb
  obtain ⟨k1, k2, k3⟩ := columns hw (hx1 _ hf) hfb (hx2 _ hb)
  have hd : xhi - xlo ≠ 0 := by
    intro h
    linarith [hx1 _ hf, hx2 _ hb]
  obtain ⟨n, hn⟩ : ∃ n : Nat, w - before w xlo xhi front - after w xlo xhi back = n :=
    ⟨_, (Int.toNat_of_nonneg (by omega)).symm⟩
  have heq' : c.ys.length = n → Equidistant c.xs := by
    intro hl
    rcases heq with h | h
    · exact h
    · have := g.same
      omega
  obtain ⟨vs, v1, v2, v3⟩ := resample_spec g hf hb (n := n) (by omega) heq'
  have hvr : ∀ v ∈ vs, ylo ≤ v ∧ v ≤ yhi := by
    intro v hm
    obtain ⟨k, hk⟩ := List.getElem?_of_mem hm
    exact onPolygon_range g.incr (v3 k v hk) hv
  obtain ⟨p', d1, d2⟩ := drawValues_spec hh hy c.marker vs (before w xlo xhi front) p k1 (w := w)
    (by rw [v2]; omega) hvr
  refine ⟨p', ?_, ?_⟩
  · simp only [drawCurve, hf, hb, if_neg hd, hn, v1, bind_ok, d1]
  · intro j r
    have hiff : Draws w h xlo xhi ylo yhi c.xs c.ys j r ↔
        ∃ (k : Nat) (y : K), vs[k]? = some y ∧ j = before w xlo xhi front + k ∧ IsRow h ylo yhi y r := by
      constructor
      · rintro ⟨f', b', e1, e2, e3, e4, y, e5, e6⟩
        rw [hf] at e1; rw [hb] at e2
        obtain rfl := Option.some.inj e1
        obtain rfl := Option.some.inj e2
        change before w xlo xhi front ≤ j at e3
        change j < w - after w xlo xhi back at e4
        change OnPolygon c.xs c.ys (columnX front back
          (w - before w xlo xhi front - after w xlo xhi back) (j - before w xlo xhi front)) y at e5
        obtain ⟨k, hk⟩ : ∃ k : Nat, j - before w xlo xhi front = k :=
          ⟨_, (Int.toNat_of_nonneg (by omega)).symm⟩
        have hkl : k < vs.length := by omega
        have hg := List.getElem?_eq_getElem hkl
        rw [hn, hk] at e5
        have := onPolygon_unique g.incr e5 (v3 k _ hg)
        exact ⟨k, y, by rw [this]; exact hg, by omega, e6⟩
      · rintro ⟨k, y, hk, hj, hr⟩
        have hkl : k < vs.length := (List.getElem?_eq_some_iff.1 hk).1
        refine ⟨front, back, hf, hb, ?_, ?_, y, ?_, hr⟩
        · change before w xlo xhi front ≤ j
          omega
        · change j < w - after w xlo xhi back
          omega
        · change OnPolygon c.xs c.ys (columnX front back
            (w - before w xlo xhi front - after w xlo xhi back) (j - before w xlo xhi front)) y
          have hjk : j - before w xlo xhi front = k := by omega
          rw [hn, hjk]
          exact v3 k y hk
    rw [hiff]
    exact d2 j r

theorem fold_spec {w h : Int} (hw : 1 ≤ w) (hh : 1 ≤ h) {xlo xhi ylo yhi : K} (hy : ylo < yhi)
    (cs : List (Curve K)) (p : Plane) (g : ∀ c ∈ cs, Good c.xs c.ys)
    (heq : ∀ c ∈ cs, Equidistant c.xs ∨ w < c.xs.length)
    (hx1 : ∀ c ∈ cs, ∀ a, c.xs.head? = some a → xlo ≤ a)
    (hx2 : ∀ c ∈ cs, ∀ a, c.xs.getLast? = some a → a ≤ xhi)
    (hv : ∀ c ∈ cs, ∀ v ∈ c.ys, ylo ≤ v ∧ v ≤ yhi) :
    ∃ p', cs.foldlM (drawCurve w h xlo xhi ylo yhi) p = ok p' ∧ ∀ j r : Int,
      ((∀ c ∈ cs, ¬ Draws w h xlo xhi ylo yhi c.xs c.ys j r) → p' j r = p j r) ∧
      (∀ l1 c l2, cs = l1 ++ c :: l2 → Draws w h xlo xhi ylo yhi c.xs c.ys j r →
        (∀ c' ∈ l2, ¬ Draws w h xlo xhi ylo yhi c'.xs c'.ys j r) → p' j r = c.marker) := by
  induction cs generalizing p with
  | nil => exact ⟨p, rfl, fun j r => ⟨fun _ => rfl, fun l1 c l2 h => by simp at h⟩⟩
  | cons c cs ih =>
    obtain ⟨q, q1, q2⟩ := drawCurve_spec hw hh hy p c (g c (by simp)) (heq c (by simp)) (hx1 c (by simp))
      (hx2 c (by simp)) (hv c (by simp))
    obtain ⟨p', p1, p2⟩ := ih q (fun d hd => g d (by simp [hd])) (fun d hd => heq d (by simp [hd]))
      (fun d hd => hx1 d (by simp [hd])) (fun d hd => hx2 d (by simp [hd])) (fun d hd => hv d (by simp [hd]))
    refine ⟨p', by simp only [List.foldlM_cons, q1, bind_ok, p1], fun j r => ⟨?_, ?_⟩⟩
    · intro hn
      rw [(p2 j r).1 (fun d hd => hn d (by simp [hd])), (q2 j r).2 (hn c (by simp))]
    · intro l1 d l2 hsplit hd hl2
      cases l1 with
      | nil =>
        simp only [List.nil_append, List.cons.injEq] at hsplit
        obtain ⟨rfl, rfl⟩ := hsplit
        rw [(p2 j r).1 hl2, (q2 j r).1 hd]
      | cons e l1 =>
        simp only [List.cons_append, List.cons.injEq] at hsplit
        exact (p2 j r).2 l1 d l2 hsplit.2 hd hl2

/-! ### The ranges -/

theorem foldMax_spec (r : List K) (a : K) :
    let m := r.foldl (fun m x => if x > m then x else m) a
    (m = a ∨ m ∈ r) ∧ a ≤ m ∧ ∀ x ∈ r, x ≤ m := by
  induction r generalizing a with
  | nil => simp
  | cons b r ih =>
    obtain ⟨h1, h2, h3⟩ := ih (if b > a then b else a)
    simp only [List.foldl_cons]
    refine ⟨?_, ?_, ?_⟩
    · rcases h1 with h1 | h1
      · rw [h1]; split
        · exact Or.inr (by simp)
        · exact Or.inl rfl
      · exact Or.inr (by simp [h1])
    · refine le_trans ?_ h2
      split
      · exact le_of_lt ‹_›
      · exact le_refl _
    · intro x hx
      rcases List.mem_cons.1 hx with rfl | hx
      · refine le_trans ?_ h2
        split
        · exact le_refl _
        · exact not_lt.1 ‹_›
      · exact h3 x hx

theorem foldMin_spec (r : List K) (a : K) :
    let m := r.foldl (fun m x => if x < m then x else m) a
    (m = a ∨ m ∈ r) ∧ m ≤ a ∧ ∀ x ∈ r, m ≤ x := by
  induction r generalizing a with
  | nil => simp
  | cons b r ih =>
    obtain ⟨h1, h2, h3⟩ := ih (if b < a then b else a)
    simp only [List.foldl_cons]
    refine ⟨?_, ?_, ?_⟩
    · rcases h1 with h1 | h1
      · rw [h1]; split
        · exact Or.inr (by simp)
        · exact Or.inl rfl
      · exact Or.inr (by simp [h1])
    · refine le_trans h2 ?_
      split
      · exact le_of_lt ‹_›
      · exact le_refl _
    · intro x hx
      rcases List.mem_cons.1 hx with rfl | hx
      · refine le_trans h2 ?_
        split
        · exact le_refl _
        · exact not_lt.1 ‹_›
      · exact h3 x hx

theorem maxOf_spec {l : List K} (h : l ≠ []) : ∃ m, maxOf l = ok m ∧ m ∈ l ∧ ∀ x ∈ l, x ≤ m := by
  cases l with
  | nil => exact absurd rfl h
  | cons a r =>
    obtain ⟨h1, h2, h3⟩ := foldMax_spec r a
    refine ⟨_, rfl, ?_, ?_⟩
    · rcases h1 with h1 | h1
      · rw [h1]; simp
      · simp [h1]
    · intro x hx
      rcases List.mem_cons.1 hx with rfl | hx
      · exact h2
      · exact h3 x hx

theorem minOf_spec {l : List K} (h : l ≠ []) : ∃ m, minOf l = ok m ∧ m ∈ l ∧ ∀ x ∈ l, m ≤ x := by
  cases l with
  | nil => exact absurd rfl h
  | cons a r =>
    obtain ⟨h1, h2, h3⟩ := foldMin_spec r a
    refine ⟨_, rfl, ?_, ?_⟩
    · rcases h1 with h1 | h1
      · rw [h1]; simp
      · simp [h1]
    · intro x hx
      rcases List.mem_cons.1 hx with rfl | hx
      · exact h2
      · exact h3 x hx

theorem yFold_spec (cs : List (Curve K)) (h : ∀ c ∈ cs, c.ys ≠ []) (a b : K) :
    ∃ lo hi, cs.foldlM (fun (r : K × K) c => do
        let mx ← maxOf c.ys
        let mn ← minOf c.ys
        ok ((if mn < r.1 then mn else r.1), (if mx > r.2 then mx else r.2))) (a, b) = ok (lo, hi) ∧
      (lo = a ∨ ∃ c ∈ cs, lo ∈ c.ys) ∧ lo ≤ a ∧ (hi = b ∨ ∃ c ∈ cs, hi ∈ c.ys) ∧ b ≤ hi ∧
      ∀ c ∈ cs, ∀ v ∈ c.ys, lo ≤ v ∧ v ≤ hi := by
  induction cs generalizing a b with
  | nil => exact ⟨a, b, rfl, Or.inl rfl, le_refl _, Or.inl rfl, le_refl _, by simp⟩
  | cons c cs ih =>
    obtain ⟨mx, x1, x2, x3⟩ := maxOf_spec (h c (by simp))
    obtain ⟨mn, n1, n2, n3⟩ := minOf_spec (h c (by simp))
    obtain ⟨lo, hi, f1, f2, f3, f4, f5, f6⟩ := ih (fun d hd => h d (by simp [hd]))
      (if mn < a then mn else a) (if mx > b then mx else b)
    have hA : (if mn < a then mn else a) ≤ a ∧ (if mn < a then mn else a) ≤ mn := by
      split
      · exact ⟨le_of_lt ‹_›, le_refl _⟩
      · exact ⟨le_refl _, not_lt.1 ‹_›⟩
    have hB : b ≤ (if mx > b then mx else b) ∧ mx ≤ (if mx > b then mx else b) := by
      split
      · exact ⟨le_of_lt ‹_›, le_refl _⟩
      · exact ⟨le_refl _, not_lt.1 ‹_›⟩
    refine ⟨lo, hi, ?_, ?_, le_trans f3 hA.1, ?_, le_trans hB.1 f5, ?_⟩
    · rw [List.foldlM_cons, x1]
      simp only [bind_ok, n1]
      exact f1
    · rcases f2 with f2 | ⟨d, hd, f2⟩
      · rw [f2]
        split
        · exact Or.inr ⟨c, by simp, n2⟩
        · exact Or.inl rfl
      · exact Or.inr ⟨d, by simp [hd], f2⟩
    · rcases f4 with f4 | ⟨d, hd, f4⟩
      · rw [f4]
        split
        · exact Or.inr ⟨c, by simp, x2⟩
        · exact Or.inl rfl
      · exact Or.inr ⟨d, by simp [hd], f4⟩
    · intro d hd v hv
      rcases List.mem_cons.1 hd with rfl | hd
      · exact ⟨le_trans f3 (le_trans hA.2 (n3 v hv)), le_trans (x3 v hv) (le_trans hB.2 f5)⟩
      · exact f6 d hd v hv

theorem xFold_spec (cs : List (Curve K)) (h : ∀ c ∈ cs, c.xs ≠ []) (a b : K) :
    ∃ lo hi, cs.foldlM (fun (r : K × K) c =>
        match c.xs.head?, c.xs.getLast? with
        | some a, some b => ok ((if r.1 < a then r.1 else a), (if r.2 > b then r.2 else b))
        | _, _ => ub .emptyContainer) (a, b) = ok (lo, hi) ∧
      (lo = a ∨ ∃ c ∈ cs, c.xs.head? = some lo) ∧ lo ≤ a ∧ (hi = b ∨ ∃ c ∈ cs, c.xs.getLast? = some hi) ∧ b ≤ hi ∧
      ∀ c ∈ cs, (∀ v, c.xs.head? = some v → lo ≤ v) ∧ ∀ v, c.xs.getLast? = some v → v ≤ hi := by
  induction cs generalizing a b with
  | nil => exact ⟨a, b, rfl, Or.inl rfl, le_refl _, Or.inl rfl, le_refl _, by simp⟩
  | cons c cs ih =>
    have hne := h c (by simp)
    obtain ⟨u, hu⟩ : ∃ a, c.xs.head? = some a := ⟨_, List.head?_eq_some_head hne⟩
    obtain ⟨v, hv⟩ : ∃ a, c.xs.getLast? = some a := ⟨_, List.getLast?_eq_some_getLast hne⟩
    obtain ⟨lo, hi, f1, f2, f3, f4, f5, f6⟩ := ih (fun d hd => h d (by simp [hd]))
      (if a < u then a else u) (if b > v then b else v)
    have hA : (if a < u then a else u) ≤ a ∧ (if a < u then a else u) ≤ u := by
      split
      · exact ⟨le_refl _, le_of_lt ‹_›⟩
      · exact ⟨not_lt.1 ‹_›, le_refl _⟩
    have hB : b ≤ (if b > v then b else v) ∧ v ≤ (if b > v then b else v) := by
      split
      · exact ⟨le_refl _, le_of_lt ‹_›⟩
      · exact ⟨not_lt.1 ‹_›, le_refl _⟩
    refine ⟨lo, hi, ?_, ?_, le_trans f3 hA.1, ?_, le_trans hB.1 f5, ?_⟩
    · rw [List.foldlM_cons]
      simp only [hu, hv, bind_ok]
      exact f1
    · rcases f2 with f2 | ⟨d, hd, f2⟩
      · rw [f2]
        split
        · exact Or.inl rfl
        · exact Or.inr ⟨c, by simp, hu⟩
      · exact Or.inr ⟨d, by simp [hd], f2⟩
    · rcases f4 with f4 | ⟨d, hd, f4⟩
      · rw [f4]
        split
        · exact Or.inl rfl
        · exact Or.inr ⟨c, by simp, hv⟩
      · exact Or.inr ⟨d, by simp [hd], f4⟩
    · intro d hd
      rcases List.mem_cons.1 hd with rfl | hd
      · refine ⟨fun x hx => ?_, fun x hx => ?_⟩
        · rw [hu] at hx; obtain rfl := Option.some.inj hx
          exact le_trans f3 hA.2
        · rw [hv] at hx; obtain rfl := Option.some.inj hx
          exact le_trans hB.2 f5
      · exact f6 d hd

theorem xRange_spec (cs : List (Curve K)) (h0 : cs ≠ []) (h : ∀ c ∈ cs, c.xs ≠ []) :
    ∃ lo hi, xRange cs = ok (lo, hi) ∧ (∃ c ∈ cs, c.xs.head? = some lo) ∧ (∃ c ∈ cs, c.xs.getLast? = some hi) ∧
      ∀ c ∈ cs, (∀ v, c.xs.head? = some v → lo ≤ v) ∧ ∀ v, c.xs.getLast? = some v → v ≤ hi := by
  cases cs with
  | nil => exact absurd rfl h0
  | cons c cs =>
    have hne := h c (by simp)
    obtain ⟨u, hu⟩ : ∃ a, c.xs.head? = some a := ⟨_, List.head?_eq_some_head hne⟩
    obtain ⟨v, hv⟩ : ∃ a, c.xs.getLast? = some a := ⟨_, List.getLast?_eq_some_getLast hne⟩
    obtain ⟨lo, hi, f1, f2, f3, f4, f5, f6⟩ := xFold_spec (c :: cs) h u v
    refine ⟨lo, hi, ?_, ?_, ?_, f6⟩
    · simp only [xRange, hu, hv]
      exact f1
    · rcases f2 with rfl | f2
      · exact ⟨c, by simp, hu⟩
      · exact f2
    · rcases f4 with rfl | f4
      · exact ⟨c, by simp, hv⟩
      · exact f4

end Verif.Ascii
