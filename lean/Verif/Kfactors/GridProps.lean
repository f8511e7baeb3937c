import Verif.Kfactors.Grid
import Mathlib.Tactic.Linarith
import Mathlib.Tactic.NormNum
import Mathlib.Tactic.FieldSimp
import Mathlib.Data.List.GetD

/-!
# C127: the grids of the interpolated functions `K`
-/

namespace Verif.Kfactors

open Outcome

/-- An interpolation in the layout of the GSL: at the points of the grid it has the values given, the first axis
running fastest. -/
def Interpolates (sp : Interp2d) : Prop :=
  ∀ xs ys z : List ℝ, xs.Pairwise (· < ·) → ys.Pairwise (· < ·) → z.length = xs.length * ys.length →
    ∀ i j x y v, xs[i]? = some x → ys[j]? = some y → z[j * xs.length + i]? = some v → sp xs ys z x y = v

theorem place_inj {ms i j i' j' : ℕ} (hi : i < ms) (hi' : i' < ms) (h : j * ms + i = j' * ms + i') :
    i = i' ∧ j = j' := by
  have h1 : i = i' := by
    have := congrArg (· % ms) h
    simpa [Nat.mul_add_mod', Nat.mod_eq_of_lt hi, Nat.mod_eq_of_lt hi'] using this
  subst h1
  exact ⟨rfl, Nat.eq_of_mul_eq_mul_right (by omega) (Nat.add_right_cancel h)⟩

theorem place_lt {ms ts i j : ℕ} (hi : i < ms) (hj : j < ts) : j * ms + i < ms * ts := by
  have : (j + 1) * ms ≤ ts * ms := Nat.mul_le_mul_right _ hj
  rw [Nat.mul_comm ms ts]
  have h2 : (j + 1) * ms = j * ms + ms := Nat.succ_mul _ _
  omega

theorem fillRow_ok (ms ts : ℕ) (k : ℕ → ℕ → ℝ) (i : ℕ) (hi : i < ms) (js : List ℕ) (hjs : ∀ j ∈ js, j < ts)
    (z : List ℝ) (hz : z.length = ms * ts) :
    ∃ z', fillRow ms k i js z = ok z' ∧ z'.length = ms * ts ∧
      ∀ i' j', i' < ms → j' < ts →
        z'[j' * ms + i']? = if i' = i ∧ j' ∈ js then some (k i' j') else z[j' * ms + i']? := by
  induction js generalizing z with
  | nil => exact ⟨z, rfl, hz, fun i' j' _ _ => by simp⟩
  | cons j js ih =>
    have hj := hjs j (by simp)
    have hp : j * ms + i < z.length := by rw [hz]; exact place_lt hi hj
    obtain ⟨z', h1, h2, h3⟩ := ih (fun a ha => hjs a (by simp [ha])) (z.set (j * ms + i) (k i j)) (by simpa)
    refine ⟨z', ?_, h2, fun i' j' hi' hj' => ?_⟩
    · rw [fillRow, setAt, if_pos hp]
      exact h1
    · rw [h3 i' j' hi' hj', List.getElem?_set]
      by_cases hm : i' = i ∧ j' ∈ js
      · rw [if_pos hm, if_pos ⟨hm.1, by simp [hm.2]⟩]
      · rw [if_neg hm]
        by_cases he : i' = i ∧ j' = j
        · obtain ⟨rfl, rfl⟩ := he
          simp [hp]
        · rw [if_neg, if_neg]
          · rintro ⟨a, b⟩
            rcases List.mem_cons.1 b with b | b
            · exact he ⟨a, b⟩
            · exact hm ⟨a, b⟩
          · intro h
            have := place_inj hi hi' h
            exact he ⟨this.1.symm, this.2.symm⟩

theorem fillRows_ok (ms ts : ℕ) (k : ℕ → ℕ → ℝ) (is : List ℕ) (his : ∀ i ∈ is, i < ms)
    (z : List ℝ) (hz : z.length = ms * ts) :
    ∃ z', fillRows ms ts k is z = ok z' ∧ z'.length = ms * ts ∧
      ∀ i' j', i' < ms → j' < ts →
        z'[j' * ms + i']? = if i' ∈ is then some (k i' j') else z[j' * ms + i']? := by
  induction is generalizing z with
  | nil => exact ⟨z, rfl, hz, fun i' j' _ _ => by simp⟩
  | cons i is ih =>
    obtain ⟨y, a1, a2, a3⟩ := fillRow_ok ms ts k i (his i (by simp)) (List.range ts) (by simp) z hz
    obtain ⟨z', h1, h2, h3⟩ := ih (fun a ha => his a (by simp [ha])) y a2
    refine ⟨z', ?_, h2, fun i' j' hi' hj' => ?_⟩
    · rw [fillRows, a1]
      exact h1
    · rw [h3 i' j' hi' hj', a3 i' j' hi' hj']
      by_cases hm : i' ∈ is
      · rw [if_pos hm, if_pos (by simp [hm])]
      · rw [if_neg hm]
        by_cases he : i' = i
        · rw [if_pos ⟨he, by simpa using hj'⟩, if_pos (by simp [he])]
        · rw [if_neg (fun h => he h.1), if_neg (by simp [he, hm])]

/-- C127: filling the grid raises no exception, and the entry for the mass `i` and the temperature `j` is where the
GSL looks for it. -/
theorem C127_layout (ms ts : ℕ) (k : ℕ → ℕ → ℝ) :
    ∃ z, fill ms ts k = ok z ∧ z.length = ms * ts ∧
      ∀ i j, i < ms → j < ts → z[j * ms + i]? = some (k i j) := by
  obtain ⟨z, h1, h2, h3⟩ := fillRows_ok ms ts k (List.range ms) (by simp) (List.replicate (ms * ts) 0) (by simp)
  refine ⟨z, h1, h2, fun i j hi hj => ?_⟩
  rw [h3 i j hi hj, if_pos (by simpa using hi)]

/-- The functions and the tables they are to use. -/
theorem C127_tables (sp : Interp2d) (d : GridData) :
    [rawK1fermion sp d, rawK1boson sp d, rawK2fermion sp d, rawK4fermion sp d, rawK4boson sp d, rawK5fermion sp d,
      rawK5boson sp d, rawK6fermion sp d, rawK8fermion sp d, rawK9fermion sp d] =
    [d.k1p, d.k1m, d.k2p, d.k4p, d.k4m, d.k5p, d.k5m, d.k6p, d.k8p, d.k9p].map (evalGrid sp d) := rfl

theorem eval_some (sp : Interp2d) (xs ys z : List ℝ) (x0 x1 y0 y1 x y : ℝ) (h0 : xs.head? = some x0)
    (h1 : xs.getLast? = some x1) (h2 : ys.head? = some y0) (h3 : ys.getLast? = some y1) :
    spline2dEval sp xs ys z x y =
      if (x0 ≤ x ∧ x ≤ x1) ∧ y0 ≤ y ∧ y ≤ y1 then some (sp xs ys z x y) else none := by
  unfold spline2dEval
  rw [h0, h1, h2, h3]
  dsimp only
  by_cases ha : x < x0 ∨ x > x1
  · rw [if_pos ha, if_neg]
    rintro ⟨⟨a, b⟩, -⟩
    rcases ha with h | h <;> linarith
  · rw [if_neg ha]
    rw [not_or, not_lt, gt_iff_lt, not_lt] at ha
    by_cases hb : y < y0 ∨ y > y1
    · rw [if_pos hb, if_neg]
      rintro ⟨-, a, b⟩
      rcases hb with h | h <;> linarith
    · rw [if_neg hb]
      rw [not_or, not_lt, gt_iff_lt, not_lt] at hb
      rw [if_pos ⟨ha, hb⟩]

theorem sorted_bounds {l : List ℝ} (h : l.Pairwise (· < ·)) {a b x : ℝ} (ha : l.head? = some a)
    (hb : l.getLast? = some b) {i : ℕ} (hx : l[i]? = some x) : a ≤ x ∧ x ≤ b := by
  have hmem : x ∈ l := List.mem_of_getElem? hx
  constructor
  · cases l with
    | nil => cases ha
    | cons c l =>
      cases ha
      rcases List.mem_cons.1 hmem with rfl | hm
      · exact le_refl _
      · exact ((List.pairwise_cons.1 h).1 x hm).le
  · obtain ⟨l', rfl⟩ := List.getLast?_eq_some_iff.1 hb
    rcases List.mem_append.1 hmem with hm | hm
    · exact ((List.pairwise_append.1 h).2.2 x hm b (by simp)).le
    · rw [List.mem_singleton.1 hm]

/-- C127: at the points of the grid the interpolated function has the value of its table. -/
theorem C127_nodes (sp : Interp2d) (hsp : Interpolates sp) (d : GridData) (hm : d.msg.Pairwise (· < ·))
    (ht : d.tg.Pairwise (· < ·)) (k : ℕ → ℕ → ℝ) (i j : ℕ) (m2 T : ℝ) (hi : d.msg[i]? = some m2)
    (hj : d.tg[j]? = some T) : evalGrid sp d k m2 T = ok (some (k i j)) := by
  obtain ⟨z, h1, h2, h3⟩ := C127_layout d.msg.length d.tg.length k
  obtain ⟨hi', -⟩ := List.getElem?_eq_some_iff.1 hi
  obtain ⟨hj', -⟩ := List.getElem?_eq_some_iff.1 hj
  have e1 : d.msg ≠ [] := by intro h; rw [h] at hi'; simp at hi'
  have e2 : d.tg ≠ [] := by intro h; rw [h] at hj'; simp at hj'
  have a0 := List.head?_eq_some_head e1
  have a1 := List.getLast?_eq_some_getLast e1
  have a2 := List.head?_eq_some_head e2
  have a3 := List.getLast?_eq_some_getLast e2
  rw [evalGrid, h1, bind_ok, eval_some sp _ _ _ _ _ _ _ _ _ a0 a1 a2 a3,
    if_pos ⟨sorted_bounds hm a0 a1 hi, sorted_bounds ht a2 a3 hj⟩,
    hsp _ _ _ hm ht h2 i j _ _ _ hi hj (h3 i j hi' hj')]

theorem axis_eq (stop step : ℝ) (n fuel : ℕ) (x : ℝ) (hn : n ≤ fuel)
    (hle : ∀ k : ℕ, k < n → x + k * step ≤ stop) (hgt : stop < x + n * step) :
    axis stop step fuel x = (List.range n).map fun k : ℕ => x + k * step := by
  induction n generalizing fuel x with
  | zero =>
    cases fuel with
    | zero => rfl
    | succ f =>
      rw [axis, if_neg (by simpa using hgt)]
      rfl
  | succ n ih =>
    obtain ⟨f, rfl⟩ : ∃ f, fuel = f + 1 := ⟨fuel - 1, by omega⟩
    rw [axis, if_pos (by simpa using hle 0 (by omega)), ih f (x + step) (by omega)]
    · rw [List.range_succ_eq_map, List.map_cons, List.map_map]
      congr 1
      · simp
      · refine List.map_congr_left fun k _ => ?_
        simp only [Function.comp_apply, Nat.succ_eq_add_one]
        push_cast
        ring
    · intro k hk
      have := hle (k + 1) (by omega)
      push_cast at this
      linarith
    · push_cast at hgt
      linarith

/-- C127: the axes that Kfactor_grid computes, without rounding. -/
theorem C127_axes :
    massList = (List.range 5001).map (fun k : ℕ => (k : ℝ) / 1000) ++ (List.range 7999).map (fun k : ℕ => 10 + 5 * (k : ℝ)) ∧
    tempList = (List.range 121).map fun k : ℕ => 10 + 2 * (k : ℝ) := by
  have shape : ∀ (n : ℕ) (f g : ℕ → ℝ), (∀ k, f k = g k) → (List.range n).map f = (List.range n).map g :=
    fun n f g h => List.map_congr_left fun k _ => h k
  have h1 : axis 5 (1 / 1000) 6000 0 = (List.range 5001).map fun k : ℕ => (k : ℝ) / 1000 := by
    rw [axis_eq 5 (1 / 1000) 5001 6000 0 (by norm_num)]
    · exact shape _ _ _ fun k => by ring
    · intro k hk
      have : (k : ℝ) ≤ 5000 := by exact_mod_cast (by omega : k ≤ 5000)
      linarith
    · norm_num
  have h2 : axis (200 ^ 2) 5 8100 10 = (List.range 7999).map fun k : ℕ => 10 + 5 * (k : ℝ) := by
    rw [axis_eq (200 ^ 2) 5 7999 8100 10 (by norm_num)]
    · exact shape _ _ _ fun k => by ring
    · intro k hk
      have : (k : ℝ) ≤ 7998 := by exact_mod_cast (by omega : k ≤ 7998)
      linarith
    · norm_num
  refine ⟨by rw [massList, h1, h2], ?_⟩
  rw [tempList, axis_eq 250 2 121 130 10 (by norm_num)]
  · exact shape _ _ _ fun k => by ring
  · intro k hk
    have : (k : ℝ) ≤ 120 := by exact_mod_cast (by omega : k ≤ 120)
    linarith
  · norm_num

theorem pairwise_range (n : ℕ) (f : ℕ → ℝ) (h : ∀ a b : ℕ, a < b → f a < f b) :
    ((List.range n).map f).Pairwise (· < ·) := by
  rw [List.pairwise_map]
  exact List.pairwise_lt_range.imp fun {a b} hab => h a b hab

/-- C127: both axes are strictly increasing, as the GSL demands, and reach from 0 to 200² and from 10 to 250. -/
theorem C127_increasing : massList.Pairwise (· < ·) ∧ tempList.Pairwise (· < ·) ∧
    massList.head? = some 0 ∧ massList.getLast? = some (200 ^ 2) ∧
    tempList.head? = some 10 ∧ tempList.getLast? = some 250 := by
  rw [C127_axes.1, C127_axes.2]
  have last : ∀ (n : ℕ) (f : ℕ → ℝ), ((List.range (n + 1)).map f).getLast? = some (f n) := by
    intro n f
    rw [List.range_succ, List.map_append]
    simp
  have first : ∀ (n : ℕ) (f : ℕ → ℝ), ((List.range (n + 1)).map f).head? = some (f 0) := by
    intro n f
    rw [List.range_succ_eq_map]
    simp
  refine ⟨?_, ?_, ?_, ?_, ?_, ?_⟩
  · rw [List.pairwise_append]
    refine ⟨pairwise_range _ _ ?_, pairwise_range _ _ ?_, ?_⟩
    · intro a b h
      have : (a : ℝ) < b := by exact_mod_cast h
      exact div_lt_div_of_pos_right this (by norm_num)
    · intro a b h
      have : (a : ℝ) < b := by exact_mod_cast h
      linarith
    · intro a ha b hb
      obtain ⟨k, hk, rfl⟩ := List.mem_map.1 ha
      obtain ⟨l, hl, rfl⟩ := List.mem_map.1 hb
      have h1 : (k : ℝ) ≤ 5000 := by
        have := List.mem_range.1 hk
        exact_mod_cast (by omega : k ≤ 5000)
      have h2 : (0 : ℝ) ≤ l := Nat.cast_nonneg _
      have : (k : ℝ) / 1000 ≤ 5 := by linarith
      linarith
  · refine pairwise_range _ _ ?_
    intro a b h
    have : (a : ℝ) < b := by exact_mod_cast h
    linarith
  · rw [List.head?_append, first]
    simp
  · rw [List.getLast?_append, last]
    norm_num
  · rw [first]; simp
  · rw [last]; norm_num

/-- C127: with the tables of Kfactor_grid, each function gives at the points of the grid the integral of its own
number and statistics; `K9` of a vanishing mass is that of a small one. -/
theorem C127_integrals (sp : Interp2d) (hsp : Interpolates sp) (i j : ℕ) (m2 T : ℝ)
    (hi : massList[i]? = some m2) (hj : tempList[j]? = some T) :
    rawK1fermion sp gridData m2 T = ok (some (integration m2 T 1 1)) ∧
    rawK2fermion sp gridData m2 T = ok (some (integration m2 T 2 1)) ∧
    rawK4fermion sp gridData m2 T = ok (some (integration m2 T 4 1)) ∧
    rawK5fermion sp gridData m2 T = ok (some (integration m2 T 5 1)) ∧
    rawK6fermion sp gridData m2 T = ok (some (integration m2 T 6 1)) ∧
    rawK8fermion sp gridData m2 T = ok (some (integration m2 T 8 1)) ∧
    rawK9fermion sp gridData m2 T = ok (some (integration (max m2 (1 / 10 ^ 15)) T 9 1)) ∧
    rawK1boson sp gridData m2 T = ok (some (integration m2 T 1 (-1))) ∧
    rawK4boson sp gridData m2 T = ok (some (integration m2 T 4 (-1))) ∧
    rawK5boson sp gridData m2 T = ok (some (integration m2 T 5 (-1))) := by
  have h := fun k => C127_nodes sp hsp gridData C127_increasing.1 C127_increasing.2.1 k i j m2 T hi hj
  have e1 : massList.getD i 0 = m2 := by rw [List.getD_eq_getElem?_getD, hi]; rfl
  have e2 : tempList.getD j 0 = T := by rw [List.getD_eq_getElem?_getD, hj]; rfl
  refine ⟨?_, ?_, ?_, ?_, ?_, ?_, ?_, ?_, ?_, ?_⟩ <;>
    (first
      | exact (h gridData.k1p).trans (by simp only [gridData, e1, e2])
      | exact (h gridData.k2p).trans (by simp only [gridData, e1, e2])
      | exact (h gridData.k4p).trans (by simp only [gridData, e1, e2])
      | exact (h gridData.k5p).trans (by simp only [gridData, e1, e2])
      | exact (h gridData.k6p).trans (by simp only [gridData, e1, e2])
      | exact (h gridData.k8p).trans (by simp only [gridData, e1, e2])
      | exact (h gridData.k9p).trans (by simp only [gridData, e1, e2])
      | exact (h gridData.k1m).trans (by simp only [gridData, e1, e2])
      | exact (h gridData.k4m).trans (by simp only [gridData, e1, e2])
      | exact (h gridData.k5m).trans (by simp only [gridData, e1, e2]))

/-- C127: there is a value exactly for squared masses from 0 to 200² and temperatures from 10 to 250, and there the
argument of the norms is inside of the range of their splines. -/
theorem C127_range (sp : Interp2d) (k : ℕ → ℕ → ℝ) (m2 T : ℝ) :
    ((∃ v, evalGrid sp gridData k m2 T = ok (some v)) ↔ (0 ≤ m2 ∧ m2 ≤ 200 ^ 2) ∧ 10 ≤ T ∧ T ≤ 250) ∧
    ((0 ≤ m2 ∧ m2 ≤ 200 ^ 2) ∧ 10 ≤ T ∧ T ≤ 250 → 0 ≤ m2 / T ^ 2 ∧ m2 / T ^ 2 ≤ 400) := by
  obtain ⟨-, -, a0, a1, a2, a3⟩ := C127_increasing
  obtain ⟨z, h1, -, -⟩ := C127_layout gridData.msg.length gridData.tg.length k
  refine ⟨?_, ?_⟩
  · rw [evalGrid, h1, bind_ok, eval_some sp gridData.msg gridData.tg z _ _ _ _ m2 T a0 a1 a2 a3]
    split
    · rename_i h
      exact ⟨fun _ => h, fun _ => ⟨_, rfl⟩⟩
    · rename_i h
      exact ⟨fun ⟨v, hv⟩ => (by cases hv), fun h' => absurd h' h⟩
  · rintro ⟨⟨b0, b1⟩, b2, b3⟩
    refine ⟨by positivity, ?_⟩
    rw [div_le_iff₀ (by positivity)]
    nlinarith

/-- C127 is false of the code for the temperatures that the search for the critical temperature allows: it goes up
to 300, but above 250 none of the functions has a value. -/
theorem C127_temperature_fails (sp : Interp2d) (m2 T : ℝ) (h : 250 < T) :
    rawK1fermion sp gridData m2 T = ok none ∧ rawK4boson sp gridData m2 T = ok none := by
  have : ∀ k, evalGrid sp gridData k m2 T = ok none := by
    intro k
    obtain ⟨-, -, a0, a1, a2, a3⟩ := C127_increasing
    obtain ⟨z, h1, -, -⟩ := C127_layout gridData.msg.length gridData.tg.length k
    rw [evalGrid, h1, bind_ok, eval_some sp gridData.msg gridData.tg z _ _ _ _ m2 T a0 a1 a2 a3, if_neg]
    rintro ⟨-, -, h'⟩
    linarith
  exact ⟨this _, this _⟩

/-- Hypotheses of `C127_integrals`: the mass 0 and the temperature 100 are on the grid; and an interpolation
exists. -/
example : massList[0]? = some 0 ∧ tempList[45]? = some 100 ∧ ∃ sp, Interpolates sp := by
  refine ⟨?_, ?_, ?_⟩
  · rw [← List.head?_eq_getElem?]; exact C127_increasing.2.2.1
  · rw [C127_axes.2, List.getElem?_map, List.getElem?_range (by norm_num)]
    norm_num
  · classical
    refine ⟨fun xs ys z x y => z.getD (ys.idxOf y * xs.length + xs.idxOf x) 0, ?_⟩
    intro xs ys z hx hy hz i j x y v h1 h2 h3
    have nd : ∀ l : List ℝ, l.Pairwise (· < ·) → l.Nodup := fun l h => h.imp fun {a b} h => ne_of_lt h
    have e : ∀ (l : List ℝ) (i : ℕ) (x : ℝ), l.Pairwise (· < ·) → l[i]? = some x → l.idxOf x = i := by
      intro l i x hl h
      obtain ⟨hi, rfl⟩ := List.getElem?_eq_some_iff.1 h
      exact (nd l hl).idxOf_getElem i hi
    dsimp only
    rw [e xs i x hx h1, e ys j y hy h2, List.getD_eq_getElem?_getD, h3]
    rfl

end Verif.Kfactors
