import Verif.Ascii.Draw
import Mathlib.Tactic.NormNum
import Mathlib.Data.Rat.Floor
import Mathlib.Algebra.Order.Ring.Rat

/-!
# C113: plots in characters
-/

set_option linter.unusedSectionVars false

namespace Verif.Ascii

open Verif Verif.Outcome Spec

section

variable {K : Type} [Field K] [LinearOrder K] [IsStrictOrderedRing K] [FloorRing K]

/-- The values leave a range to draw: two different ones, or one outside `[1e-15, 1e15]`. -/
def Spread (cs : List (Curve K)) : Prop :=
  (∃ c ∈ cs, ∃ v ∈ c.ys, v < 1 / 10 ^ 15 ∨ 10 ^ 15 < v) ∨
    ∃ c ∈ cs, ∃ v ∈ c.ys, ∃ c' ∈ cs, ∃ v' ∈ c'.ys, v ≠ v'

theorem good_ne {xs ys : List K} (g : Good xs ys) : xs ≠ [] ∧ ys ≠ [] := by
  have h1 := g.two
  have h2 := g.same
  constructor <;> intro h <;> simp [h] at h1 h2 <;> omega

/-- **C113.**  Data that can be plotted are plotted, for every size of the plot and every number of curves: nothing
outside the plane is written.  The printed ranges hold all data, and every cell shows the marker of the last curve that
passes through it, or a blank. -/
theorem C113_plane {w h : Int} (hw : 1 ≤ w) (hh : 1 ≤ h) (cs : List (Curve K)) (h0 : cs ≠ [])
    (g : ∀ c ∈ cs, Good c.xs c.ys) (heq : ∀ c ∈ cs, Equidistant c.xs ∨ w < c.xs.length) (hs : Spread cs) :
    ∃ (p : Plane) (xlo xhi ylo yhi : K), plane w h cs = ok (p, (xlo, xhi), (ylo, yhi)) ∧
      (∃ c ∈ cs, c.xs.head? = some xlo) ∧ (∃ c ∈ cs, c.xs.getLast? = some xhi) ∧
      (∀ c ∈ cs, (∀ v, c.xs.head? = some v → xlo ≤ v) ∧ ∀ v, c.xs.getLast? = some v → v ≤ xhi) ∧
      (ylo = 10 ^ 15 ∨ ∃ c ∈ cs, ylo ∈ c.ys) ∧ (yhi = 1 / 10 ^ 15 ∨ ∃ c ∈ cs, yhi ∈ c.ys) ∧
      ylo ≤ 10 ^ 15 ∧ 1 / 10 ^ 15 ≤ yhi ∧ (∀ c ∈ cs, ∀ v ∈ c.ys, ylo ≤ v ∧ v ≤ yhi) ∧
      ∀ j r : Int,
        ((∀ c ∈ cs, ¬ Draws w h xlo xhi ylo yhi c.xs c.ys j r) → p j r = ' ') ∧
        (∀ l1 c l2, cs = l1 ++ c :: l2 → Draws w h xlo xhi ylo yhi c.xs c.ys j r →
          (∀ c' ∈ l2, ¬ Draws w h xlo xhi ylo yhi c'.xs c'.ys j r) → p j r = c.marker) := by
  obtain ⟨xlo, xhi, x1, x2, x3, x4⟩ := xRange_spec cs h0 (fun c hc => (good_ne (g c hc)).1)
  obtain ⟨ylo, yhi, y1, y2, y3, y4, y5, y6⟩ :=
    yFold_spec cs (fun c hc => (good_ne (g c hc)).2) (10 ^ 15 : K) (1 / 10 ^ 15)
  have hy : ylo < yhi := by
    rcases hs with ⟨c, hc, v, hv, h | h⟩ | ⟨c, hc, v, hv, c', hc', v', hv', hne⟩
    · exact lt_of_le_of_lt (y6 c hc v hv).1 (lt_of_lt_of_le h y5)
    · exact lt_of_le_of_lt y3 (lt_of_lt_of_le h (y6 c hc v hv).2)
    · have a := y6 c hc v hv
      have b := y6 c' hc' v' hv'
      rcases lt_or_gt_of_ne hne with h | h
      · exact lt_of_le_of_lt a.1 (lt_of_lt_of_le h b.2)
      · exact lt_of_le_of_lt b.1 (lt_of_lt_of_le h a.2)
  obtain ⟨p, p1, p2⟩ := fold_spec hw hh hy cs (fun _ _ => ' ') g heq (fun c hc => (x4 c hc).1)
    (fun c hc => (x4 c hc).2) y6 (xlo := xlo) (xhi := xhi)
  refine ⟨p, xlo, xhi, ylo, yhi, ?_, x2, x3, x4, y2, y4, y3, y5, y6, p2⟩
  have y1' : yRange cs = ok (ylo, yhi) := y1
  simp only [plane, x1, y1', bind_ok, p1]

/-- Every curve passes through exactly one line of each of its columns, and there is at least one column. -/
theorem C113_columns {w h : Int} (hw : 1 ≤ w) (hh : 1 ≤ h) {xlo xhi ylo yhi : K} (hy : ylo < yhi)
    {xs ys : List K} (g : Good xs ys) {front back : K} (hf : xs.head? = some front) (hb : xs.getLast? = some back)
    (h1 : xlo ≤ front) (h2 : back ≤ xhi) (hv : ∀ v ∈ ys, ylo ≤ v ∧ v ≤ yhi) :
    ∃ b a : Int, b = ⌊(w : K) * (front - xlo) / (xhi - xlo)⌋ ∧ a = ⌊(w : K) * (xhi - back) / (xhi - xlo)⌋ ∧
      0 ≤ b ∧ 0 ≤ a ∧ b < w - a ∧
      ∀ j, b ≤ j → j < w - a → ∃! r, Draws w h xlo xhi ylo yhi xs ys j r := by
  have hfb := front_lt_back g.incr g.two hf hb
  obtain ⟨k1, k2, k3⟩ := columns hw h1 hfb h2
  refine ⟨before w xlo xhi front, after w xlo xhi back, rfl, rfl, k1, k2, by omega, ?_⟩
  intro j hj1 hj2
  obtain ⟨n, hn⟩ : ∃ n : Nat, w - before w xlo xhi front - after w xlo xhi back = n :=
    ⟨_, (Int.toNat_of_nonneg (by omega)).symm⟩
  obtain ⟨k, hk⟩ : ∃ k : Nat, j - before w xlo xhi front = k := ⟨_, (Int.toNat_of_nonneg (by omega)).symm⟩
  have hpoly : ∃ y, OnPolygon xs ys (columnX front back n k) y := by
    rcases Nat.lt_or_ge n 2 with hlt | hge
    · have hn1 : n = 1 := by omega
      have hlen := g.same
      have h2' := g.two
      have hb' := hb
      rw [List.getLast?_eq_getElem?, show xs.length - 1 = xs.length - 2 + 1 by omega] at hb'
      have ex := List.getElem?_eq_getElem (l := xs) (i := xs.length - 2) (by omega)
      have ey := List.getElem?_eq_getElem (l := ys) (i := xs.length - 2) (by omega)
      have ez := List.getElem?_eq_getElem (l := ys) (i := xs.length - 2 + 1) (by omega)
      refine ⟨ys[xs.length - 2 + 1]'(by omega), xs.length - 2, xs[xs.length - 2]'(by omega), back,
        ys[xs.length - 2]'(by omega), ys[xs.length - 2 + 1]'(by omega), ex, hb', ey, ez, ?_, ?_, ?_⟩
      all_goals simp only [columnX, hn1, Nat.cast_one, if_true]
      · exact (lt_of_index g.incr ex hb' (by omega)).le
      · exact le_refl _
    · obtain ⟨y, _, hy'⟩ := newValue_spec g hf hb hfb.le hge (show k < n by omega)
      exact ⟨y, hy'⟩
  obtain ⟨y, hy'⟩ := hpoly
  have hr := onPolygon_range g.incr hy' hv
  obtain ⟨r, _, hrow⟩ := cellOf_spec hh hy hr.1 hr.2
  refine ⟨r, ⟨front, back, hf, hb, hj1, hj2, y, ?_, hrow⟩, ?_⟩
  · change OnPolygon xs ys (columnX front back
      (w - before w xlo xhi front - after w xlo xhi back) (j - before w xlo xhi front)) y
    rw [hn, hk]; exact hy'
  · rintro r' ⟨f', b', e1, e2, _, _, y', e5, e6⟩
    rw [hf] at e1; rw [hb] at e2
    obtain rfl := Option.some.inj e1
    obtain rfl := Option.some.inj e2
    change OnPolygon xs ys (columnX front back
      (w - before w xlo xhi front - after w xlo xhi back) (j - before w xlo xhi front)) y' at e5
    rw [hn, hk] at e5
    rw [onPolygon_unique g.incr e5 hy'] at e6
    exact isRow_unique hy e6 hrow

/-- The plot of the potential difference in the search for the critical temperature (minimum_tracer.cpp:1302-1321: 101
temperatures, a line of zeros and the difference, 100 columns and 35 lines) is drawn for every difference. -/
theorem C113_critical (lo hi : K) (hlt : lo < hi) (dV : K → K) :
    let ts := (List.range 101).map fun i : Nat => lo + i * ((hi - lo) / 100)
    ∃ r, plane 100 35 [⟨ts, ts.map fun _ => 0, [], '.'⟩, ⟨ts, ts.map dV, ['d', 'V'], '*'⟩] = ok r ∧
      r.2.1 = (lo, hi) := by
  intro ts
  have hstep : (0 : K) < (hi - lo) / 100 := div_pos (by linarith) (by norm_num)
  have hlen : ts.length = 101 := by simp [ts]
  have hinc : ts.Pairwise (· < ·) := by
    rw [List.pairwise_map]
    refine List.Pairwise.imp ?_ List.pairwise_lt_range
    intro a b hab
    have : (a : K) < b := by exact_mod_cast hab
    have := mul_lt_mul_of_pos_right this hstep
    linarith
  have hg : ∀ f : K → K, Good ts (ts.map f) := fun f => ⟨by omega, by simp, hinc⟩
  have hhead : ts.head? = some lo := by
    rw [List.head?_eq_getElem?, List.getElem?_map, List.getElem?_range (by norm_num)]
    simp
  have hlast : ts.getLast? = some hi := by
    simp only [ts, List.getLast?_map, List.getLast?_range]
    simp only [Option.map_some, if_neg (by norm_num : ¬ (101 = 0))]
    congr 1
    push_cast
    ring
  obtain ⟨p, xlo, xhi, ylo, yhi, h1, ⟨c, hc, h2⟩, ⟨c', hc', h3⟩, _⟩ := C113_plane (w := 100) (h := 35) (by norm_num)
    (by norm_num) [⟨ts, ts.map fun _ => 0, [], '.'⟩, ⟨ts, ts.map dV, ['d', 'V'], '*'⟩] (by simp)
    (by
      intro c hc
      simp only [List.mem_cons, List.not_mem_nil, or_false] at hc
      rcases hc with rfl | rfl
      · exact hg fun _ => 0
      · exact hg dV)
    (by
      intro c hc
      right
      simp only [List.mem_cons, List.not_mem_nil, or_false] at hc
      rcases hc with rfl | rfl <;> simp [hlen])
    (by
      left
      refine ⟨_, List.mem_cons_self, 0, ?_, Or.inl (by positivity)⟩
      exact List.mem_map.2 ⟨lo, List.mem_of_mem_head? (by rw [hhead]; simp), rfl⟩)
  refine ⟨_, h1, ?_⟩
  simp only [List.mem_cons, List.not_mem_nil, or_false] at hc hc'
  have e1 : xlo = lo := by
    rcases hc with rfl | rfl <;> exact (Option.some.inj (hhead.symm.trans h2)).symm
  have e2 : xhi = hi := by
    rcases hc' with rfl | rfl <;> exact (Option.some.inj (hlast.symm.trans h3)).symm
  rw [e1, e2]

example : ∃ lo hi : Rat, lo < hi := ⟨0, 246, by norm_num⟩

/-- Without two different values there is no plot: for one value between `1e-15` and `1e15` the height is 0/0, whose
conversion to an integer is undefined. -/
theorem C113_constant_fails {w h : Int} (hw : 1 ≤ w) (c : Curve K) (cs : List (Curve K))
    (g : ∀ d ∈ c :: cs, Good d.xs d.ys) (heq : ∀ d ∈ c :: cs, Equidistant d.xs ∨ w < d.xs.length) (v : K)
    (h1 : 1 / 10 ^ 15 ≤ v) (h2 : v ≤ 10 ^ 15) (hv : ∀ d ∈ c :: cs, ∀ u ∈ d.ys, u = v) :
    plane w h (c :: cs) = ub .overflow := by
  obtain ⟨xlo, xhi, x1, _, _, x4⟩ := xRange_spec (c :: cs) (by simp) (fun c hc => (good_ne (g c hc)).1)
  obtain ⟨ylo, yhi, y1, y2, y3, y4, y5, y6⟩ :=
    yFold_spec (c :: cs) (fun c hc => (good_ne (g c hc)).2) (10 ^ 15 : K) (1 / 10 ^ 15)
  have y1' : yRange (c :: cs) = ok (ylo, yhi) := y1
  have gc := g c (by simp)
  obtain ⟨u, hu⟩ := List.exists_mem_of_ne_nil _ (good_ne gc).2
  have hu' := y6 c (by simp) u hu
  rw [hv c (by simp) u hu] at hu'
  have elo : ylo = v := by
    rcases y2 with rfl | ⟨d, hd, hm⟩
    · exact le_antisymm hu'.1 h2
    · exact hv d hd _ hm
  have ehi : yhi = v := by
    rcases y4 with rfl | ⟨d, hd, hm⟩
    · exact le_antisymm h1 hu'.2
    · exact hv d hd _ hm
  have h2' := gc.two
  have hne := (good_ne gc).1
  obtain ⟨front, hf⟩ : ∃ a, c.xs.head? = some a := ⟨_, List.head?_eq_some_head hne⟩
  obtain ⟨back, hb⟩ : ∃ a, c.xs.getLast? = some a := ⟨_, List.getLast?_eq_some_getLast hne⟩
  have hfb := front_lt_back gc.incr gc.two hf hb
  have l1 := (x4 c (by simp)).1 _ hf
  have l2 := (x4 c (by simp)).2 _ hb
  obtain ⟨k1, k2, k3⟩ := columns hw l1 hfb l2
  obtain ⟨n, hn⟩ : ∃ n : Nat, w - before w xlo xhi front - after w xlo xhi back = n :=
    ⟨_, (Int.toNat_of_nonneg (by omega)).symm⟩
  have hd : xhi - xlo ≠ 0 := by intro h; linarith
  have heq' : c.ys.length = n → Equidistant c.xs := by
    intro hl
    rcases heq c (by simp) with h | h
    · exact h
    · have := gc.same
      omega
  obtain ⟨vs, v1, v2, v3⟩ := resample_spec gc hf hb (n := n) (by omega) heq'
  have hdraw : drawCurve w h xlo xhi ylo yhi (fun _ _ => ' ') c = ub .overflow := by
    simp only [drawCurve, hf, hb, if_neg hd, hn, v1, bind_ok]
    cases vs with
    | nil => simp at v2; omega
    | cons a vs =>
      simp only [List.map_cons, drawValues, cellOf, elo, ehi, sub_self, if_true, bind_ub]
  simp only [plane, x1, y1', bind_ok, List.foldlM_cons, hdraw, bind_ub]

/-- If all values are negative, the upper end of the printed range is `1e-15`, not the largest value. -/
theorem C113_negative_fails {w h : Int} (hw : 1 ≤ w) (hh : 1 ≤ h) (cs : List (Curve K)) (h0 : cs ≠ [])
    (g : ∀ c ∈ cs, Good c.xs c.ys) (heq : ∀ c ∈ cs, Equidistant c.xs ∨ w < c.xs.length)
    (hneg : ∀ c ∈ cs, ∀ v ∈ c.ys, v < 0) :
    ∃ (p : Plane) (xr : K × K) (ylo : K), plane w h cs = ok (p, xr, (ylo, 1 / 10 ^ 15)) ∧
      ∀ c ∈ cs, (1 / 10 ^ 15 : K) ∉ c.ys := by
  have hpos : (0 : K) < 1 / 10 ^ 15 := by positivity
  have hnot : ∀ c ∈ cs, (1 / 10 ^ 15 : K) ∉ c.ys := fun c hc hm => by linarith [hneg c hc _ hm]
  have hs : Spread cs := by
    left
    obtain ⟨c, hc⟩ := List.exists_mem_of_ne_nil _ h0
    obtain ⟨u, hu⟩ := List.exists_mem_of_ne_nil _ (good_ne (g c hc)).2
    exact ⟨c, hc, u, hu, Or.inl (by linarith [hneg c hc u hu])⟩
  obtain ⟨p, xlo, xhi, ylo, yhi, q1, _, _, _, _, q6, _, q8, _⟩ := C113_plane hw hh cs h0 g heq hs
  have : yhi = 1 / 10 ^ 15 := by
    rcases q6 with h | ⟨c, hc, hm⟩
    · exact h
    · linarith [hneg c hc _ hm]
  exact ⟨p, _, ylo, this ▸ q1, hnot⟩

/-- A curve of one point at the lower end of the range gets no column at all, and the first element of an empty vector
is written. -/
theorem C113_point_fails (w h : Int) (xlo xhi ylo yhi y : K) (hlt : xlo < xhi) (p : Plane) (label : List Char)
    (m : Char) : drawCurve w h xlo xhi ylo yhi p ⟨[xlo], [y], label, m⟩ = ub .outOfBounds := by
  have hd : xhi - xlo ≠ 0 := by intro h; linarith
  have e1 : before w xlo xhi xlo = 0 := by simp [before]
  have e2 : after w xlo xhi xlo = w := by
    rw [after, mul_div_assoc, div_self hd, mul_one, Int.floor_intCast]
  simp [drawCurve, if_neg hd, e1, e2, resample]

/-- Ten curves are kept in order; the eleventh is written outside of the arrays. -/
theorem C113_curves (cs : List (Curve K)) (c : Curve K) :
    (cs.length < 10 → addPlot cs c = ok (cs ++ [c])) ∧ (10 ≤ cs.length → addPlot cs c = ub .outOfBounds) :=
  ⟨fun h => if_pos h, fun h => if_neg (by omega)⟩

end

/-- With as many values as columns the coordinates are ignored: for the points (0,0), (1,1), (10,10) on a line the
second column, which stands for 5, shows 1. -/
theorem C113_spacing_fails :
    Good [(0 : Rat), 1, 10] [0, 1, 10] ∧
    (∃ p, plane 3 10 [⟨[(0 : Rat), 1, 10], [0, 1, 10], [], '*'⟩] = ok (p, (0, 10), (0, 10)) ∧
      p 1 1 = '*' ∧ p 1 5 = ' ') ∧
    Draws 3 10 (0 : Rat) 10 0 10 [0, 1, 10] [0, 1, 10] 1 5 ∧
    ¬ Draws 3 10 (0 : Rat) 10 0 10 [0, 1, 10] [0, 1, 10] 1 1 := by
  have g : Good [(0 : Rat), 1, 10] [0, 1, 10] := ⟨by simp, by simp, by decide⟩
  have hD : Draws 3 10 (0 : Rat) 10 0 10 [0, 1, 10] [0, 1, 10] 1 5 := by
    refine ⟨0, 10, rfl, rfl, by norm_num, by norm_num, 5, ⟨1, 1, 10, 1, 10, rfl, rfl, rfl, rfl, ?_, ?_, ?_⟩, ?_⟩
    all_goals norm_num [columnX, IsRow]
  refine ⟨g, ?_, hD, ?_⟩
  · have hc : (match plane 3 10 [⟨[(0 : Rat), 1, 10], [0, 1, 10], [], '*'⟩] with
        | ok r => decide (r.2 = ((0, 10), (0, 10)) ∧ r.1 1 1 = '*' ∧ r.1 1 5 = ' ')
        | _ => false) = true := by decide +kernel
    cases hp : plane 3 10 [⟨[(0 : Rat), 1, 10], [0, 1, 10], [], '*'⟩] with
    | ok r =>
      rw [hp] at hc
      simp only [decide_eq_true_eq] at hc
      exact ⟨r.1, by rw [← hc.1], hc.2⟩
    | err e => rw [hp] at hc; simp at hc
    | ub u => rw [hp] at hc; simp at hc
  intro h
  obtain ⟨b, a, hb, ha, _, _, _, hu⟩ := C113_columns (w := 3) (h := 10) (by norm_num) (by norm_num)
    (show (0 : Rat) < 10 by norm_num) g rfl rfl (le_refl (0 : Rat)) (le_refl (10 : Rat)) (by decide)
  have := (hu 1 (by rw [hb]; norm_num) (by rw [ha]; norm_num)).unique h hD
  norm_num at this

/-- The title is centred if it fits. -/
theorem C113_title (w : Nat) (title : List Char) (hw : w < 2 ^ 31) (h : title.length ≤ w) :
    titleBlanks w title = 9 + (w - title.length) / 2 := by
  unfold titleBlanks
  simp only
  omega

/-- A title longer than the plot gets more than 2^62 blanks. -/
theorem C113_title_fails (w : Nat) (title : List Char) (h : w < title.length) (hl : title.length < 2 ^ 31) :
    2 ^ 62 < titleBlanks w title := by
  unfold titleBlanks
  simp only
  omega

/-- A label of the legend is filled up to the width of the plot if it fits. -/
theorem C113_legend (w : Nat) (label : List Char) (hw : w < 2 ^ 31) (h : label.length + 5 ≤ w) :
    legendBlanks w label = w - 5 - label.length := by
  unfold legendBlanks
  simp only
  omega

/-- A longer label gets more than 2^62 blanks. -/
theorem C113_legend_fails (w : Nat) (label : List Char) (h : w < label.length + 5) (hl : label.length < 2 ^ 31) :
    2 ^ 62 < legendBlanks w label := by
  unfold legendBlanks
  simp only
  omega

/-- Seven phases have different visible markers; every eighth phase is drawn with the character NUL. -/
theorem C113_markers_fails :
    (∀ i < 7, ∀ j < 7, phaseMarker i = phaseMarker j → i = j) ∧ (∀ i < 7, phaseMarker i ≠ ' ' ∧ phaseMarker i ≠ '\x00') ∧
      ∀ k, phaseMarker (8 * k + 7) = '\x00' := by
  refine ⟨by decide, by decide, fun k => ?_⟩
  have : (8 * k + 7) % 8 = 7 := by omega
  rw [phaseMarker, this]
  rfl

/-- Two curves that cross, drawn with 4 columns and 4 lines, meet the hypotheses of `C113_plane`. -/
example : (∀ c ∈ [(⟨[0, 1, 2], [0, 1, 2], [], 'a'⟩ : Curve Rat), ⟨[1, 2, 3], [2, 1, 0], [], 'b'⟩],
    Good c.xs c.ys ∧ Equidistant c.xs) ∧
    Spread [(⟨[0, 1, 2], [0, 1, 2], [], 'a'⟩ : Curve Rat), ⟨[1, 2, 3], [2, 1, 0], [], 'b'⟩] := by
  constructor
  · intro c hc
    simp only [List.mem_cons, List.not_mem_nil, or_false] at hc
    rcases hc with rfl | rfl
    · refine ⟨⟨by simp, by simp, by decide⟩, 0, 1, fun i x hx => ?_⟩
      match i, hx with
      | 0, hx => simp at hx; simp [← hx]
      | 1, hx => simp at hx; simp [← hx]
      | 2, hx => simp at hx; simp [← hx]
      | i + 3, hx => simp at hx
    · refine ⟨⟨by simp, by simp, by decide⟩, 1, 1, fun i x hx => ?_⟩
      match i, hx with
      | 0, hx => simp at hx; simp [← hx]
      | 1, hx => simp at hx; simp [← hx]; norm_num
      | 2, hx => simp at hx; simp [← hx]; norm_num
      | i + 3, hx => simp at hx
  · left
    exact ⟨_, List.mem_cons_self, 0, by simp, Or.inl (by norm_num)⟩

end Verif.Ascii
