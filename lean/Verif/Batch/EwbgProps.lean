import Verif.Batch.Ewbg
import Verif.Batch.Lines
import Verif.Batch.LegendProps
import Mathlib.Tactic.Ring
import Mathlib.Tactic.FieldSimp
import Mathlib.Algebra.Field.Rat

/-!
# C121: the output files of PlotEWBG_vw, PlotEWBG_nL and CreateMuGrid
-/

namespace Verif.Batch.Ewbg

open Outcome Spec
open Verif.Transition (columns columns_tab columns_plain)

variable {K : Type}

/-- A file in which a line under the legend is found. -/
structure HasLine (file : List Char) (n : Nat) (legend line : Line) : Prop where
  second : 2 ≤ n
  found : ∃ ls, IsText (legend :: ls) file ∧ (legend :: ls)[n - 1]? = some line

theorem steps_of {file : List Char} {n : Nat} {legend line : Line} (h : HasLine file n legend line) :
    ∃ fuel₀, ∀ fuel ≥ fuel₀, searchProgram n fuel file = some [.legend legend, .point line] := by
  obtain ⟨hn, ls, ht, hl⟩ := h
  refine ⟨ls.length + 2, fun fuel hf => ?_⟩
  obtain ⟨hlt, hval⟩ := List.getElem?_eq_some_iff.1 hl
  obtain ⟨steps, h1, h2, -⟩ := C99_search_partial n hn legend ls file ht fuel (by omega) (Or.inl (by omega))
  have : numbered n n (legend :: ls) = [line] := by
    unfold numbered
    have e : (legend :: ls).take n = (legend :: ls).take (n - 1) ++ [line] := by
      conv_lhs => rw [show n = (n - 1) + 1 by omega]
      rw [List.take_add_one, hl]; rfl
    rw [e, List.drop_left' (by rw [List.length_take]; omega)]
  rw [h1, h2, this]
  rfl

theorem columns_cons (x : Line) {y : Line} (h : '\t' ∉ y) : columns (x ++ '\t' :: y) = columns x ++ [y] := columns_sep x h

/-! ## PlotEWBG_vw -/

theorem vw_header {eta : List String} (he : ∀ s ∈ eta, '\t' ∉ s.toList) (line : Line) :
    columns (vwHeader eta line) = columns line ++ chars (["T_c_var", "omega_c_var", "vw_var", "LW_var"] ++
      eta.map (· ++ "_var")) := by
  have ht : ∀ y ∈ chars (eta.map (· ++ "_var")), '\t' ∉ y := by
    intro y hy
    obtain ⟨s, hs, rfl⟩ := List.mem_map.1 hy
    obtain ⟨s, hs', rfl⟩ := List.mem_map.1 hs
    have := he s hs'
    simp only [String.toList_append, List.mem_append, not_or]
    exact ⟨this, by decide⟩
  unfold vwHeader
  rw [columns_sepEach _ ht, columns_cons _ (by decide), columns_cons _ (by decide), columns_cons _ (by decide),
    columns_cons _ (by decide)]
  simp [chars]

theorem vw_row {fmt : K → Line} (hf : ∀ x, '\t' ∉ fmt x) (line : Line) (tc vc vw lw : K) (eta : List K) :
    columns (vwRow fmt line tc vc vw lw eta) = columns line ++ ([tc, vc, vw, lw] ++ eta).map fmt := by
  have ht : ∀ y ∈ eta.map fmt, '\t' ∉ y := by
    intro y hy
    obtain ⟨s, -, rfl⟩ := List.mem_map.1 hy
    exact hf s
  unfold vwRow
  rw [columns_sepEach _ ht, columns_cons _ (hf _), columns_cons _ (hf _), columns_cons _ (hf _), columns_cons _ (hf _)]
  simp

theorem vwRows_ok {fmt : K → Line} {line : Line} {tc vc : K} {eval : K → Outcome (K × List K)} {vws : List K}
    (h : ∀ v ∈ vws, ∃ r, eval v = ok r) :
    (vwRows fmt line tc vc eval vws).2 = ok true ∧ (vwRows fmt line tc vc eval vws).1.length = vws.length ∧
    ∀ (k : Nat) (v : K), vws[k]? = some v → ∃ lw eta, eval v = ok (lw, eta) ∧
      (vwRows fmt line tc vc eval vws).1[k]? = some (vwRow fmt line tc vc v lw eta) := by
  induction vws with
  | nil => simp [vwRows]
  | cons v vws ih =>
    obtain ⟨r, hr⟩ := h v (by simp)
    obtain ⟨h1, h2, h3⟩ := ih fun v hv => h v (by simp [hv])
    rw [vwRows, hr]
    refine ⟨h1, by simp [h2], fun k w hk => ?_⟩
    cases k with
    | zero =>
      simp only [List.getElem?_cons_zero, Option.some.injEq] at hk
      subst hk
      exact ⟨r.1, r.2, hr, rfl⟩
    | succ k =>
      obtain ⟨lw, eta, h4, h5⟩ := h3 k w (by simpa using hk)
      exact ⟨lw, eta, h4, by simpa using h5⟩

/-- PlotEWBG_vw with a strong transition: the file is the header and one line for each wall velocity, in order.  The line has
the columns of the input, and then, under the names in the header, the critical temperature, the critical vacuum expectation
value, the velocity, the thickness of the wall and each asymmetry for this velocity. -/
theorem C121_velocities_partial (fmt : K → Line) (hf : ∀ x, '\t' ∉ fmt x) (eta : List String)
    (he : ∀ s ∈ eta, '\t' ∉ s.toList) (file : List Char) (n : Nat) (legend line : Line) (hl : HasLine file n legend line)
    (find : Line → Transition K) (hs : (find line).success = true ∧ (find line).strong = true)
    (eval : Line → K → Outcome (K × List K)) (vws : List K)
    (hv : ∀ v ∈ vws, ∃ lw xs, eval line v = ok (lw, xs) ∧ xs.length = eta.length) :
    ∃ fuel₀, ∀ fuel ≥ fuel₀, ∃ steps rows header, searchProgram n fuel file = some steps ∧
      (plotVw fmt eta steps find eval vws).lines = header :: rows ∧ (plotVw fmt eta steps find eval vws).exit = ok true ∧
      columns header = columns legend ++ chars (["T_c_var", "omega_c_var", "vw_var", "LW_var"] ++ eta.map (· ++ "_var")) ∧
      rows.length = vws.length ∧
      ∀ (k : Nat) (v : K), vws[k]? = some v → ∃ row lw xs, rows[k]? = some row ∧ eval line v = ok (lw, xs) ∧
        columns row = columns line ++ ([(find line).tc, (find line).vc, v, lw] ++ xs).map fmt ∧
        (columns row).length + (columns legend).length = (columns header).length + (columns line).length := by
  obtain ⟨f0, hf0⟩ := steps_of hl
  refine ⟨f0, fun fuel hfuel => ?_⟩
  obtain ⟨h1, h2, h3⟩ := vwRows_ok (fmt := fmt) (line := line) (tc := (find line).tc) (vc := (find line).vc)
    (eval := eval line) (vws := vws) fun v hv' => by
      obtain ⟨lw, xs, h, -⟩ := hv v hv'
      exact ⟨_, h⟩
  refine ⟨_, (vwRows fmt line (find line).tc (find line).vc (eval line) vws).1, vwHeader eta legend, hf0 fuel hfuel, ?_, ?_,
    vw_header he legend, h2, fun k v hk => ?_⟩
  · simp [plotVw, point, headers, hs.1, hs.2]
  · simp [plotVw, point, hs.1, hs.2, h1]
  · obtain ⟨lw, xs, h4, h5⟩ := h3 k v hk
    refine ⟨_, lw, xs, h5, h4, vw_row hf _ _ _ _ _ _, ?_⟩
    obtain ⟨lw', xs', h6, h7⟩ := hv v (List.mem_of_getElem? hk)
    rw [h4, Outcome.ok.injEq, Prod.mk.injEq] at h6
    rw [vw_row hf, vw_header he]
    simp only [List.length_append, List.length_map, chars, h6.2, h7, List.length_cons, List.length_nil]
    omega

theorem no_transition_columns : columns noTransition = [noTransition] := columns_plain (by decide)

/-- Without a strong transition the program reports success, but the one line under the header is a single word: it does not
have the columns of the header, whatever the input. -/
theorem C121_no_transition_fails (fmt : K → Line) (eta : List String) (he : ∀ s ∈ eta, '\t' ∉ s.toList) (file : List Char)
    (n : Nat) (legend line : Line) (hl : HasLine file n legend line) (find : Line → Transition K)
    (hs : ((find line).success && (find line).strong) = false) (eval : Line → K → Outcome (K × List K)) (vws : List K) :
    ∃ fuel₀, ∀ fuel ≥ fuel₀, ∃ steps, searchProgram n fuel file = some steps ∧ ∃ header row,
      (plotVw fmt eta steps find eval vws).lines = [header, row] ∧ (plotVw fmt eta steps find eval vws).exit = ok true ∧
      row = "-1-1-1-1-1".toList ∧ (columns row).length = 1 ∧ 5 ≤ (columns header).length := by
  obtain ⟨f0, hf0⟩ := steps_of hl
  refine ⟨f0, fun fuel hfuel => ⟨_, hf0 fuel hfuel, vwHeader eta legend, noTransition, ?_, ?_, by decide, ?_, ?_⟩⟩
  · simp [plotVw, point, headers, hs]
  · simp [plotVw, point, hs]
  · rw [no_transition_columns]; rfl
  · rw [vw_header he]
    have : columns legend ≠ [] := Transition.columns_ne legend
    have : 0 < (columns legend).length := List.length_pos_iff.2 this
    simp only [List.length_append, chars, List.length_map, List.length_cons, List.length_nil]
    omega

theorem vwRows_append (fmt : K → Line) (line : Line) (tc vc : K) (eval : K → Outcome (K × List K)) (l r : List K)
    (hl : ∀ v ∈ l, ∃ r, eval v = ok r) :
    vwRows fmt line tc vc eval (l ++ r) = ((vwRows fmt line tc vc eval l).1 ++ (vwRows fmt line tc vc eval r).1,
      (vwRows fmt line tc vc eval r).2) := by
  induction l with
  | nil => rfl
  | cons v l ih =>
    obtain ⟨x, hx⟩ := hl v (by simp)
    rw [List.cons_append, vwRows, hx, ih fun v hv => hl v (by simp [hv]), vwRows, hx]
    rfl

/-- If an exception is thrown for a velocity, the program ends with it; the file has the lines of the velocities before. -/
theorem C121_exception (fmt : K → Line) (eta : List String) (file : List Char) (n : Nat) (legend line : Line)
    (hl : HasLine file n legend line) (find : Line → Transition K)
    (hs : (find line).success = true ∧ (find line).strong = true) (eval : Line → K → Outcome (K × List K)) (before after : List K)
    (v : K) (hb : ∀ w ∈ before, ∃ r, eval line w = ok r) (e : Err) (hv : eval line v = err e) :
    ∃ fuel₀, ∀ fuel ≥ fuel₀, ∃ steps, searchProgram n fuel file = some steps ∧
      (plotVw fmt eta steps find eval (before ++ v :: after)).exit = err e ∧
      (plotVw fmt eta steps find eval (before ++ v :: after)).lines = (plotVw fmt eta steps find eval before).lines := by
  obtain ⟨f0, hf0⟩ := steps_of hl
  refine ⟨f0, fun fuel hfuel => ⟨_, hf0 fuel hfuel, ?_⟩⟩
  have h2 : vwRows fmt line (find line).tc (find line).vc (eval line) (v :: after) = ([], err e) := by
    rw [vwRows, hv]
  simp [plotVw, point, hs.1, hs.2, vwRows_append _ _ _ _ _ _ _ hb, h2]

/-- If the line is not in the file, the program ends with an error, but the output file with the header has been created. -/
theorem C121_missing_line (fmt : K → Line) (eta : List String) (legend : Line) (find : Line → Transition K)
    (eval : Line → K → Outcome (K × List K)) (vws : List K) :
    (plotVw fmt eta [.legend legend] find eval vws).exit = ok false ∧
    (plotVw fmt eta [.legend legend] find eval vws).lines = [vwHeader eta legend] := ⟨rfl, rfl⟩

/-! ## PlotEWBG_nL -/

theorem nl_header (line : Line) : columns (nlHeader line) = columns line ++ chars ["T_c_nLvar", "omega_c_nLvar", "vw_nLvar",
    "LW_nLvar", "z", "z/LW", "nL_VIA", "muL_FH", "nL_FH"] := by
  unfold nlHeader
  iterate 9 rw [columns_cons _ (by decide)]
  simp [chars]

theorem nl_row [Field K] {fmt : K → Line} (hf : ∀ x, '\t' ∉ fmt x) (line : Line) (tc vc vw : K) (p : Profiles K) (i : Nat)
    (z d : K) (hz : p.grid[i]? = some z) (hd : p.density[i]? = some d) :
    ∃ row, nlRow fmt line tc vc vw p i = ok row ∧ columns row = columns line ++
      [tc, vc, vw, p.lw, z, z / p.lw, d, p.potential z, p.potential z * tc ^ 2].map fmt := by
  obtain ⟨h1, h2⟩ := List.getElem?_eq_some_iff.1 hz
  obtain ⟨h3, h4⟩ := List.getElem?_eq_some_iff.1 hd
  refine ⟨_, by rw [nlRow, at'_of_lt h1, at'_of_lt h3, h2, h4]; rfl, ?_⟩
  iterate 9 rw [columns_cons _ (hf _)]
  simp

theorem mapM_range {α : Type} {f : Nat → Outcome α} {P : Nat → α → Prop} (n : Nat)
    (h : ∀ i < n, ∃ a, f i = ok a ∧ P i a) :
    ∃ l, (List.range n).mapM f = ok l ∧ l.length = n ∧ ∀ i < n, ∃ a, l[i]? = some a ∧ P i a := by
  induction n with
  | zero => exact ⟨[], rfl, rfl, fun i hi => by omega⟩
  | succ n ih =>
    obtain ⟨l, h1, h2, h3⟩ := ih fun i hi => h i (by omega)
    obtain ⟨a, h4, h5⟩ := h n (by omega)
    refine ⟨l ++ [a], ?_, by simp [h2], fun i hi => ?_⟩
    · rw [List.range_succ, List.mapM_append, h1]
      simp only [bind_ok, List.mapM_cons, List.mapM_nil, h4]
      rfl
    · rcases Nat.lt_succ_iff_lt_or_eq.1 hi with hi | rfl
      · obtain ⟨b, h6, h7⟩ := h3 i hi
        exact ⟨b, by rw [List.getElem?_append_left (by omega)]; exact h6, h7⟩
      · exact ⟨a, by rw [← h2]; simp, h5⟩

/-- PlotEWBG_nL with a strong transition and the grid of `set_up_nL_grid` from 0 to `zmax`: the file is the header and 100
lines; line `i` has, after the input and under the names of the header, the transition, the position `i * zmax / 100`, the
position in units of the thickness of the wall, the density at this position, and the chemical potential of the other method
there, also multiplied by the squared temperature. -/
theorem C121_densities_partial [Field K] (fmt : K → Line) (hf : ∀ x, '\t' ∉ fmt x) (vw : K) (file : List Char) (n : Nat)
    (legend line : Line) (hl : HasLine file n legend line) (find : Line → Transition K)
    (hs : (find line).success = true ∧ (find line).strong = true) (profiles : Line → Outcome (Profiles K)) (p : Profiles K)
    (hp : profiles line = ok p) (zmax : K) (density : K → K)
    (hgrid : p.grid = (List.range 101).map fun i : Nat => (i : K) * zmax / 100)
    (hdens : p.density = (List.range 101).map fun i : Nat => density ((i : K) * zmax / 100)) :
    ∃ fuel₀, ∀ fuel ≥ fuel₀, ∃ steps rows header, searchProgram n fuel file = some steps ∧
      (plotNL fmt vw steps find profiles).lines = header :: rows ∧ (plotNL fmt vw steps find profiles).exit = ok true ∧
      columns header = columns legend ++ chars ["T_c_nLvar", "omega_c_nLvar", "vw_nLvar", "LW_nLvar", "z", "z/LW", "nL_VIA",
        "muL_FH", "nL_FH"] ∧
      rows.length = 100 ∧ ∀ i : Nat, i < 100 → ∃ row, rows[i]? = some row ∧ ∃ z, z = (i : K) * zmax / 100 ∧
        columns row = columns line ++ [(find line).tc, (find line).vc, vw, p.lw, z, z / p.lw, density z, p.potential z,
          p.potential z * (find line).tc ^ 2].map fmt := by
  obtain ⟨f0, hf0⟩ := steps_of hl
  refine ⟨f0, fun fuel hfuel => ?_⟩
  obtain ⟨rows, h1, h2, h3⟩ := mapM_range (f := nlRow fmt line (find line).tc (find line).vc vw p)
    (P := fun i row => ∃ z, z = (i : K) * zmax / 100 ∧
        columns row = columns line ++ [(find line).tc, (find line).vc, vw, p.lw, z, z / p.lw, density z, p.potential z,
          p.potential z * (find line).tc ^ 2].map fmt) 100 (by
      intro i hi
      have hr : (List.range 101)[i]? = some i := List.getElem?_range (by omega)
      obtain ⟨row, h1, h2⟩ := nl_row hf line (find line).tc (find line).vc vw p i ((i : K) * zmax / 100)
        (density ((i : K) * zmax / 100)) (by rw [hgrid, List.getElem?_map, hr]; rfl)
        (by rw [hdens, List.getElem?_map, hr]; rfl)
      exact ⟨row, h1, _, rfl, h2⟩)
  refine ⟨_, rows, nlHeader legend, hf0 fuel hfuel, ?_, ?_, nl_header legend, h2, h3⟩
  · simp [plotNL, point, headers, hs.1, hs.2, hp, h1, bind_ok]
  · simp [plotNL, point, hs.1, hs.2, hp, h1, bind_ok]

/-- The same line without columns is written by PlotEWBG_nL. -/
theorem C121_no_density_fails [Field K] (fmt : K → Line) (vw : K) (file : List Char) (n : Nat) (legend line : Line)
    (hl : HasLine file n legend line) (find : Line → Transition K)
    (hs : ((find line).success && (find line).strong) = false) (profiles : Line → Outcome (Profiles K)) :
    ∃ fuel₀, ∀ fuel ≥ fuel₀, ∃ steps, searchProgram n fuel file = some steps ∧ ∃ header row,
      (plotNL fmt vw steps find profiles).lines = [header, row] ∧ (plotNL fmt vw steps find profiles).exit = ok true ∧
      row = "-1-1-1-1-1".toList ∧ (columns row).length = 1 ∧ 10 ≤ (columns header).length := by
  obtain ⟨f0, hf0⟩ := steps_of hl
  refine ⟨f0, fun fuel hfuel => ⟨_, hf0 fuel hfuel, nlHeader legend, noTransition, ?_, ?_, by decide, ?_, ?_⟩⟩
  · simp [plotNL, point, headers, hs]
  · simp [plotNL, point, hs]
  · rw [no_transition_columns]; rfl
  · rw [nl_header]
    have : columns legend ≠ [] := Transition.columns_ne legend
    have : 0 < (columns legend).length := List.length_pos_iff.2 this
    simp only [List.length_append, chars, List.length_map, List.length_cons, List.length_nil]
    omega

/-! ## CreateMuGrid -/

/-- CreateMuGrid writes the names of two columns and 1001 lines with the positions `i * zmax / 1000`, from 0 to `zmax`, and
the potential there. -/
theorem C121_grid [Field K] [CharZero K] (fmt : K → Line) (hf : ∀ x, '\t' ∉ fmt x) (file : List Char) (n : Nat)
    (legend line : Line) (hl : HasLine file n legend line) (find : Line → Transition K)
    (profile : Line → Transition K → Outcome (K × (K → K))) (zmax : K) (mu : K → K)
    (hp : profile line (find line) = ok (zmax, mu)) :
    ∃ fuel₀, ∀ fuel ≥ fuel₀, ∃ steps rows header, searchProgram n fuel file = some steps ∧
      (muGrid fmt steps find profile).lines = header :: rows ∧ (muGrid fmt steps find profile).exit = ok true ∧
      columns header = chars ["z", "mu_{B_L}"] ∧ rows.length = 1001 ∧
      (∀ i : Nat, i < 1001 → ∃ row, rows[i]? = some row ∧
        columns row = [(i : K) * zmax / 1000, mu ((i : K) * zmax / 1000)].map fmt) ∧
      ∃ last, rows[1000]? = some last ∧ columns last = [fmt zmax, fmt (mu zmax)] := by
  obtain ⟨f0, hf0⟩ := steps_of hl
  refine ⟨f0, fun fuel hfuel => ?_⟩
  have hz : ∀ i : Nat, 0 + (zmax - 0) / 1000 * (i : K) = (i : K) * zmax / 1000 := by intro i; ring
  have hrow : ∀ i : Nat, i < 1001 → ∃ row, ((List.range 1001).map fun i : Nat =>
      fmt (0 + (zmax - 0) / 1000 * i) ++ '\t' :: fmt (mu (0 + (zmax - 0) / 1000 * i)))[i]? = some row ∧
        columns row = [(i : K) * zmax / 1000, mu ((i : K) * zmax / 1000)].map fmt := by
    intro i hi
    refine ⟨fmt (0 + (zmax - 0) / 1000 * i) ++ '\t' :: fmt (mu (0 + (zmax - 0) / 1000 * i)), ?_, ?_⟩
    · rw [List.getElem?_map, List.getElem?_range hi]; rfl
    · rw [columns_cons _ (hf _), columns_plain (hf _), hz]; rfl
  refine ⟨_, _, "z\tmu_{B_L}".toList, hf0 fuel hfuel, ?_, ?_, ?_, ?_, hrow, ?_⟩
  · simp only [muGrid, point, hp]
  · simp only [muGrid, point, hp]
  · decide
  · simp
  · obtain ⟨row, h1, h2⟩ := hrow 1000 (by omega)
    have : ((1000 : Nat) : K) * zmax / 1000 = zmax := by
      have h : (1000 : K) ≠ 0 := by exact_mod_cast (by norm_num : (1000 : ℕ) ≠ 0)
      push_cast
      field_simp
    refine ⟨row, h1, ?_⟩
    rw [h2, this]; rfl

/-- CreateMuGrid does not look whether a transition was found: a table is written, with success, also without one. -/
theorem C121_grid_unchecked_fails [Field K] (fmt : K → Line) (file : List Char) (n : Nat)
    (legend line : Line) (hl : HasLine file n legend line) (find : Line → Transition K) (_hs : (find line).success = false)
    (profile : Line → Transition K → Outcome (K × (K → K))) (p : K × (K → K)) (hp : profile line (find line) = ok p) :
    ∃ fuel₀, ∀ fuel ≥ fuel₀, ∃ steps, searchProgram n fuel file = some steps ∧
      (muGrid fmt steps find profile).exit = ok true ∧ (muGrid fmt steps find profile).lines.length = 1002 := by
  obtain ⟨f0, hf0⟩ := steps_of hl
  exact ⟨f0, fun fuel hfuel => ⟨_, hf0 fuel hfuel, by simp [muGrid, point, hp], by simp [muGrid, point, hp]⟩⟩

/-! ## The hypotheses can be met -/

example : HasLine "a\tb\n1\t2\n3\t4\n".toList 3 "a\tb".toList "3\t4".toList :=
  ⟨by decide, ["1\t2".toList, "3\t4".toList], Or.inl ⟨by decide, by decide⟩, by decide⟩

example : ∃ (fmt : ℚ → Line) (find : Line → Transition ℚ) (eval : Line → ℚ → Outcome (ℚ × List ℚ)),
    (∀ x, '\t' ∉ fmt x) ∧ (find []).success = true ∧ (find []).strong = true ∧
    ∀ v ∈ [1, 2], ∃ lw xs, eval [] v = ok (lw, xs) ∧ xs.length = ["eta_TopOnly"].length :=
  ⟨fun _ => ['7'], fun _ => ⟨true, true, 1, 2⟩, fun _ v => ok (1, [v]), fun _ => (by decide : '\t' ∉ ['7']), rfl, rfl,
    fun v _ => ⟨1, [v], rfl, rfl⟩⟩

end Verif.Batch.Ewbg
