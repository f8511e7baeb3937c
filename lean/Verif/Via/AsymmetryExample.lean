import Verif.Via.AsymmetryProps

/-!
# C90: steady densities exist

For every diffusion constant, wall velocity and rate there is a left-handed density with an asymmetry that is
not zero, so that the theorems of C90 are not about nothing.
-/

namespace Verif.Via

open Set Verif Outcome Spec Filter Topology

theorem ite_deriv_ne {f g f' g' : ℝ → ℝ} {a : ℝ} (hf : ∀ z, HasDerivAt f (f' z) z)
    (hg : ∀ z, HasDerivAt g (g' z) z) (z : ℝ) (hz : z ≠ a) :
    HasDerivAt (fun z => if z ≤ a then f z else g z) (if z ≤ a then f' z else g' z) z := by
  rcases lt_or_gt_of_ne hz with h | h
  · rw [if_pos h.le]
    refine (hf z).congr_of_eventuallyEq ?_
    filter_upwards [Iio_mem_nhds h] with y hy
    rw [if_pos (le_of_lt hy)]
  · rw [if_neg (not_le.2 h)]
    refine (hg z).congr_of_eventuallyEq ?_
    filter_upwards [Ioi_mem_nhds h] with y hy
    rw [if_neg (not_le.2 hy)]

theorem ite_deriv {f g f' g' : ℝ → ℝ} {a : ℝ} (hf : ∀ z, HasDerivAt f (f' z) z)
    (hg : ∀ z, HasDerivAt g (g' z) z) (h0 : f a = g a) (h1 : f' a = g' a) (z : ℝ) :
    HasDerivAt (fun z => if z ≤ a then f z else g z) (if z ≤ a then f' z else g' z) z := by
  rcases eq_or_ne z a with rfl | h
  · rw [if_pos le_rfl, ← hasDerivWithinAt_univ, ← Iic_union_Ici (a := z)]
    apply HasDerivWithinAt.union
    · refine (hf z).hasDerivWithinAt.congr_of_mem ?_ self_mem_Iic
      intro y hy
      rw [if_pos (show y ≤ z from hy)]
    · have := hg z
      rw [← h1] at this
      refine this.hasDerivWithinAt.congr_of_mem ?_ self_mem_Ici
      intro y hy
      rcases eq_or_lt_of_le (show z ≤ y from hy) with rfl | h
      · rw [if_pos le_rfl, h0]
      · rw [if_neg (not_le.2 h)]
  · exact ite_deriv_ne hf hg z h

theorem steady_build {D v Γ R κ : ℝ} (hD : 0 < D) (hv : 0 < v) (hΓ : 0 < Γ) (hR : 0 < R) (hκ : 0 ≤ κ)
    (active : Set ℝ) (hact : ∀ z, 0 < z → z ∈ active)
    (hon : ∀ z, z < 0 → z ∈ active → D * κ ^ 2 + v * κ - Γ * R = 0) (hoff : ∀ z, z < 0 → z ∉ active → κ = 0) :
    ∃ nL n n' n'' : ℝ → ℝ, ContinuousOn nL (Icc 0 1) ∧ (∀ z, 1 ≤ z → nL z = 0) ∧ (∀ z, z < 0 → nL z = 0) ∧
      Steady D v Γ R active nL n n' n'' ∧ ∀ z ≤ 0, 0 < n z := by
  obtain ⟨l, hl, hl0⟩ : ∃ l, D * l ^ 2 - v * l - Γ * R = 0 ∧ 0 < l := by
    have h2 := rootOmega_sq (v := v) hD hΓ hR
    have h3 := rootOmega_gt hD hv hΓ hR
    refine ⟨(v + rootOmega D v Γ R) / (2 * D), ?_, by apply div_pos <;> linarith⟩
    generalize rootOmega D v Γ R = w at *
    field_simp
    linear_combination h2
  obtain ⟨c, hc⟩ : ∃ c, c = (l + l ^ 2 + κ * (1 + l + l ^ 2 / 2)) / (3 + κ) := ⟨_, rfl⟩
  have h3κ : 0 < 3 + κ := by linarith
  have hc' : c * (3 + κ) = l + l ^ 2 + κ * (1 + l + l ^ 2 / 2) := by rw [hc]; field_simp
  -- the middle part
  let p : ℝ → ℝ := fun z => 1 - l * (z - 1) + l ^ 2 / 2 * (z - 1) ^ 2 + c * (z - 1) ^ 3
  let p' : ℝ → ℝ := fun z => -l + l ^ 2 * (z - 1) + 3 * c * (z - 1) ^ 2
  let p'' : ℝ → ℝ := fun z => l ^ 2 + 6 * c * (z - 1)
  let x : ℝ → ℝ := fun z => Real.exp (-l * (z - 1))
  let x' : ℝ → ℝ := fun z => -l * Real.exp (-l * (z - 1))
  let x'' : ℝ → ℝ := fun z => l ^ 2 * Real.exp (-l * (z - 1))
  have hu : ∀ z : ℝ, HasDerivAt (fun z : ℝ => z - 1) 1 z := fun z => (hasDerivAt_id z).sub_const 1
  have dp : ∀ z, HasDerivAt p (p' z) z := by
    intro z
    have h := ((((hu z).const_mul l).const_sub 1).fun_add (((hu z).fun_pow 2).const_mul (l ^ 2 / 2))).fun_add
      (((hu z).fun_pow 3).const_mul c)
    refine HasDerivAt.congr_deriv h ?_
    simp only [p']
    norm_num
    ring
  have dp' : ∀ z, HasDerivAt p' (p'' z) z := by
    intro z
    have h := (((hu z).const_mul (l ^ 2)).const_add (-l)).fun_add (((hu z).fun_pow 2).const_mul (3 * c))
    refine HasDerivAt.congr_deriv h ?_
    simp only [p'']
    norm_num
    ring
  have dx : ∀ z, HasDerivAt x (x' z) z := by
    intro z
    have h := ((hu z).const_mul (-l)).exp
    refine HasDerivAt.congr_deriv h ?_
    simp only [x']
    ring
  have dx' : ∀ z, HasDerivAt x' (x'' z) z := by
    intro z
    have h := (((hu z).const_mul (-l)).exp).const_mul (-l)
    refine HasDerivAt.congr_deriv h ?_
    simp only [x'']
    ring
  have d1 := ite_deriv (a := 1) dp dx (by simp [p, x]) (by simp [p', x'])
  have d2 := ite_deriv (a := 1) dp' dx' (by simp [p', x']) (by simp [p'', x''])
  let q : ℝ → ℝ := fun z => if z ≤ 1 then p z else x z
  let q' : ℝ → ℝ := fun z => if z ≤ 1 then p' z else x' z
  let q'' : ℝ → ℝ := fun z => if z ≤ 1 then p'' z else x'' z
  have p0 : p 0 = 1 + l + l ^ 2 / 2 - c := by simp only [p]; ring
  have p0' : p' 0 = κ * p 0 := by rw [p0]; simp only [p']; linear_combination hc'
  have ppos : 0 < p 0 := by
    have : p 0 * (3 + κ) = 3 + 2 * l + l ^ 2 / 2 := by rw [p0]; linear_combination -hc'
    have h4 : 0 < p 0 * (3 + κ) := by rw [this]; positivity
    exact (mul_pos_iff_of_pos_right h3κ).1 h4
  have dy : ∀ z, HasDerivAt (fun z => p 0 * Real.exp (κ * z)) (κ * p 0 * Real.exp (κ * z)) z := by
    intro z
    have h := (((hasDerivAt_id z).const_mul κ).exp).const_mul (p 0)
    refine HasDerivAt.congr_deriv h ?_
    simp only [id]
    ring
  have dy' : ∀ z, HasDerivAt (fun z => κ * p 0 * Real.exp (κ * z)) (κ ^ 2 * p 0 * Real.exp (κ * z)) z := by
    intro z
    have h := (((hasDerivAt_id z).const_mul κ).exp).const_mul (κ * p 0)
    refine HasDerivAt.congr_deriv h ?_
    simp only [id]
    ring
  have hq0 : q 0 = p 0 := if_pos zero_le_one
  have hq0' : q' 0 = p' 0 := if_pos zero_le_one
  have e1 := ite_deriv (a := 0) (g := q) (g' := q') dy d1 (by simp [hq0]) (by simp [hq0', p0'])
  have e2 := ite_deriv_ne (a := 0) (g := q') (g' := q'') dy' d2
  have pc : Continuous p := continuous_iff_continuousAt.2 fun z => (dp z).continuousAt
  have pc' : Continuous p' := continuous_iff_continuousAt.2 fun z => (dp' z).continuousAt
  have pc'' : Continuous p'' := by simp only [p'']; fun_prop
  have qc' : Continuous q' := continuous_iff_continuousAt.2 fun z => (d2 z).continuousAt
  have qc : Continuous q := continuous_iff_continuousAt.2 fun z => (d1 z).continuousAt
  refine ⟨fun z => if z < 0 then 0 else if z ≤ 1 then 2 / 3 * ((v * p' z + D * p'' z) / Γ - R * p z) else 0,
    fun z => if z ≤ 0 then p 0 * Real.exp (κ * z) else q z,
    fun z => if z ≤ 0 then κ * p 0 * Real.exp (κ * z) else q' z,
    fun z => if z ≤ 0 then κ ^ 2 * p 0 * Real.exp (κ * z) else q'' z, ?_, ?_, fun z hz => if_pos hz,
    ⟨e1, ?_, e2, ?_, ?_, ?_⟩, ?_⟩
  · have : ContinuousOn (fun z => 2 / 3 * ((v * p' z + D * p'' z) / Γ - R * p z)) (Icc 0 1) := by
      fun_prop
    refine this.congr fun z hz => ?_
    simp only
    rw [if_neg (not_lt.2 hz.1), if_pos hz.2]
  · intro z hz
    rcases eq_or_lt_of_le hz with rfl | h
    · show (if (1 : ℝ) < 0 then 0 else if (1 : ℝ) ≤ 1 then _ else _) = _
      rw [if_neg (by norm_num), if_pos le_rfl]
      have e : v * p' 1 + D * p'' 1 = Γ * R := by
        simp only [p', p'']
        linear_combination hl
      have e' : p 1 = 1 := by simp [p]
      rw [e, e', mul_comm Γ R, mul_div_cancel_right₀ _ hΓ.ne']
      ring
    · show (if z < 0 then 0 else if z ≤ 1 then _ else _) = _
      rw [if_neg (by linarith), if_neg (not_le.2 h)]
  · intro z
    have : Continuous (fun z : ℝ => if z ≤ 0 then κ * p 0 * Real.exp (κ * z) else q' z) := by
      apply Continuous.if_le (by fun_prop) qc' continuous_id continuous_const
      intro z hz
      simp only [id] at hz
      rw [hz, hq0', p0']
      simp
    exact this.continuousAt
  · obtain ⟨B, hB⟩ := isCompact_Icc.exists_bound_of_continuousOn (s := Icc (0 : ℝ) 1) qc.continuousOn
    refine ⟨max B (max (p 0) 1), fun z => ?_⟩
    by_cases h0 : z ≤ 0
    · rw [if_pos h0, abs_of_pos (mul_pos ppos (Real.exp_pos _))]
      refine le_max_of_le_right (le_max_of_le_left ?_)
      have : Real.exp (κ * z) ≤ 1 := by rw [Real.exp_le_one_iff]; nlinarith
      nlinarith
    · rw [if_neg h0]
      by_cases h1 : z ≤ 1
      · have := hB z ⟨(not_le.1 h0).le, h1⟩
        rw [Real.norm_eq_abs] at this
        exact le_max_of_le_left this
      · simp only [q, if_neg h1, x]
        rw [abs_of_pos (Real.exp_pos _)]
        refine le_max_of_le_right (le_max_of_le_right ?_)
        rw [Real.exp_le_one_iff]
        nlinarith
  · intro z h0 hz
    rcases lt_or_gt_of_ne h0 with h | h
    · have e := hon z h hz
      simp only [if_pos h.le, if_pos h]
      linear_combination -p 0 * Real.exp (κ * z) * e
    · have h0' : ¬ z ≤ 0 := not_le.2 h
      have h0'' : ¬ z < 0 := not_lt.2 h.le
      simp only [if_neg h0', if_neg h0'']
      by_cases h1 : z ≤ 1
      · simp only [q, q', q'', if_pos h1]
        field_simp
        ring
      · simp only [q, q', q'', if_neg h1, x, x', x'']
        linear_combination -Real.exp (-l * (z - 1)) * hl
  · intro z h0 hz
    have h : z < 0 := by
      rcases lt_or_gt_of_ne h0 with h | h
      · exact h
      · exact absurd (hact z h) hz
    simp only [if_pos h.le, hoff z h hz]
    ring
  · intro z hz
    simp only [if_pos hz]
    exact mul_pos ppos (Real.exp_pos _)

/-- For all parameters there is a left-handed density between the wall and a distance of one, for which a
bounded steady baryon density exists; it is positive in the broken phase. -/
theorem C90_steady_exists {D v Γ R : ℝ} (hD : 0 < D) (hv : 0 < v) (hΓ : 0 < Γ) (hR : 0 < R) :
    (∃ nL n n' n'' : ℝ → ℝ, ContinuousOn nL (Icc 0 1) ∧ (∀ z, 1 ≤ z → nL z = 0) ∧ (∀ z, z < 0 → nL z = 0) ∧
      Steady D v Γ R symmetricOnly nL n n' n'' ∧ ∀ z ≤ 0, 0 < n z) ∧
    ∃ nL n n' n'' : ℝ → ℝ, ContinuousOn nL (Icc 0 1) ∧ (∀ z, 1 ≤ z → nL z = 0) ∧ (∀ z, z < 0 → nL z = 0) ∧
      Steady D v Γ R univ nL n n' n'' ∧ ∀ z ≤ 0, 0 < n z := by
  constructor
  · exact steady_build hD hv hΓ hR le_rfl symmetricOnly (fun z hz => hz)
      (fun z hz h => absurd hz (not_lt.2 (le_of_lt h))) (fun _ _ _ => rfl)
  · have h2 := rootOmega_sq (v := v) hD hΓ hR
    have h3 := rootOmega_gt hD hv hΓ hR
    refine steady_build (κ := (rootOmega D v Γ R - v) / (2 * D)) hD hv hΓ hR
      (by apply div_nonneg <;> linarith) univ (fun z _ => mem_univ z) (fun z _ _ => ?_)
      (fun z _ h => absurd (mem_univ z) h)
    generalize rootOmega D v Γ R = w at *
    field_simp
    linear_combination h2

end Verif.Via
