import Verif.Via.Asymmetry
import Verif.Via.AsymmetrySpec
import Mathlib.Analysis.SpecialFunctions.ExpDeriv
import Mathlib.Analysis.Calculus.MeanValue
import Mathlib.MeasureTheory.Integral.IntervalIntegral.FundThmCalculus
import Mathlib.Analysis.Calculus.Deriv.Pow
import Mathlib.Tactic.Linarith
import Mathlib.Tactic.FieldSimp
import Mathlib.Tactic.LinearCombination

set_option linter.unusedVariables false

/-!
# C90: the baryon asymmetry
-/

namespace Verif.Via

open Set Verif Outcome Spec Filter Topology

/-! ## Bounded solutions -/

theorem const_Ioi {f : ℝ → ℝ} {b : ℝ} (h : ∀ z, b < z → HasDerivAt f 0 z) {x y : ℝ} (hx : b < x) (hy : b < y) :
    f x = f y := by
  have key : ∀ x y, b < x → x ≤ y → f y = f x := by
    intro x y hx hxy
    refine constant_of_has_deriv_right_zero (a := x) (b := y) ?_ ?_ y ⟨hxy, le_rfl⟩
    · exact fun z hz => (h z (lt_of_lt_of_le hx hz.1)).continuousAt.continuousWithinAt
    · exact fun z hz => (h z (lt_of_lt_of_le hx hz.1)).hasDerivWithinAt
  rcases le_total x y with hxy | hxy
  · exact (key x y hx hxy).symm
  · exact key y x hy hxy

/-- A bounded function cannot follow a growing exponential. -/
theorem bounded_exp {n n' : ℝ → ℝ} {b lam mu c M : ℝ} (hl : 0 ≤ lam) (hm : 0 < mu)
    (hn : ∀ z, b < z → HasDerivAt n (n' z) z) (hM : ∀ z, |n z| ≤ M)
    (h : ∀ z, b < z → n' z + lam * n z = c * Real.exp (mu * z)) : c = 0 := by
  have hs : 0 < lam + mu := by linarith
  have hexp : ∀ (q z : ℝ), HasDerivAt (fun z => Real.exp (q * z)) (Real.exp (q * z) * q) z := by
    intro q z
    have := ((hasDerivAt_id z).const_mul q).exp
    simpa using this
  have hH : ∀ z, b < z →
      HasDerivAt (fun z => Real.exp (lam * z) * (n z - c / (lam + mu) * Real.exp (mu * z))) 0 z := by
    intro z hz
    have := (hexp lam z).fun_mul ((hn z hz).fun_sub ((hexp mu z).const_mul (c / (lam + mu))))
    refine HasDerivAt.congr_deriv this ?_
    have e : n' z = c * Real.exp (mu * z) - lam * n z := by linarith [h z hz]
    rw [e]
    field_simp
    ring
  have hc : ∀ z, b + 1 ≤ z → |c| / (lam + mu) * Real.exp (mu * z) ≤
      M + |Real.exp (lam * (b + 1)) * (n (b + 1) - c / (lam + mu) * Real.exp (mu * (b + 1)))| *
        Real.exp (-(lam * (b + 1))) := by
    intro z hz
    have e := const_Ioi hH (show b < z by linarith) (show b < b + 1 by linarith)
    set C := Real.exp (lam * (b + 1)) * (n (b + 1) - c / (lam + mu) * Real.exp (mu * (b + 1))) with hC
    have e2 : c / (lam + mu) * Real.exp (mu * z) = n z - C * Real.exp (-(lam * z)) := by
      rw [← e, Real.exp_neg]
      have := (Real.exp_pos (lam * z)).ne'
      field_simp
      ring
    have e3 : |c| / (lam + mu) * Real.exp (mu * z) = |c / (lam + mu) * Real.exp (mu * z)| := by
      rw [abs_mul, abs_div, abs_of_pos hs, abs_of_pos (Real.exp_pos _)]
    rw [e3, e2]
    calc |n z - C * Real.exp (-(lam * z))| ≤ |n z| + |C * Real.exp (-(lam * z))| := abs_sub _ _
      _ = |n z| + |C| * Real.exp (-(lam * z)) := by rw [abs_mul, abs_of_pos (Real.exp_pos _)]
      _ ≤ M + |C| * Real.exp (-(lam * (b + 1))) := by
        apply add_le_add (hM z)
        apply mul_le_mul_of_nonneg_left _ (abs_nonneg _)
        apply Real.exp_le_exp.2
        nlinarith
  by_contra hne
  have hpos : 0 < |c| / (lam + mu) := div_pos (abs_pos.2 hne) hs
  have ht : Tendsto (fun z => |c| / (lam + mu) * Real.exp (mu * z)) atTop atTop :=
    (Real.tendsto_exp_atTop.comp (tendsto_id.const_mul_atTop hm)).const_mul_atTop hpos
  obtain ⟨z, hz⟩ := ((ht.eventually_gt_atTop
    (M + |Real.exp (lam * (b + 1)) * (n (b + 1) - c / (lam + mu) * Real.exp (mu * (b + 1)))| *
        Real.exp (-(lam * (b + 1))))).and (eventually_ge_atTop (b + 1))).exists
  exact absurd (hc z hz.2) (not_le.2 hz.1)

/-! ## The integral -/

/-- The square root in the exponents. -/
noncomputable def rootOmega (D v Γ R : ℝ) : ℝ := √(v * v + 4 * Γ * D * R)

theorem rootOmega_sq {D v Γ R : ℝ} (hD : 0 < D) (hΓ : 0 < Γ) (hR : 0 < R) :
    rootOmega D v Γ R ^ 2 = v ^ 2 + 4 * Γ * D * R := by
  unfold rootOmega
  rw [Real.sq_sqrt (by have := mul_self_nonneg v; positivity)]
  ring

theorem rootOmega_gt {D v Γ R : ℝ} (hD : 0 < D) (hv : 0 < v) (hΓ : 0 < Γ) (hR : 0 < R) :
    v < rootOmega D v Γ R := by
  have h := rootOmega_sq (v := v) hD hΓ hR
  have h0 : 0 ≤ rootOmega D v Γ R := Real.sqrt_nonneg _
  have : 0 < 4 * Γ * D * R := by positivity
  nlinarith

/-- In the symmetric phase, a bounded steady density has a fixed combination at the wall. -/
theorem steady_wall {D v Γ R zmax : ℝ} {active : Set ℝ} {nL n n' n'' : ℝ → ℝ} (hD : 0 < D) (hv : 0 < v)
    (hΓ : 0 < Γ) (hR : 0 < R) (hz : 0 < zmax) (hact : ∀ z, 0 < z → z ∈ active)
    (hcont : ContinuousOn nL (Icc 0 zmax)) (hzero : ∀ z, zmax ≤ z → nL z = 0)
    (h : Steady D v Γ R active nL n n' n'') :
    D * n' 0 + (v + rootOmega D v Γ R) / 2 * n 0 =
      -(3 / 2 * Γ) * ∫ z in (0 : ℝ)..zmax, nL z * Real.exp ((v - rootOmega D v Γ R) / (2 * D) * z) := by
  have hw2 := rootOmega_sq (v := v) hD hΓ hR
  have hvw := rootOmega_gt hD hv hΓ hR
  generalize rootOmega D v Γ R = w at *
  generalize hk' : (v - w) / (2 * D) = k
  have hk := hk'.symm
  have hkD : k * D = (v - w) / 2 := by rw [hk]; field_simp
  have hkk : k * ((v + w) / 2) = -(Γ * R) := by
    rw [hk]; field_simp; linear_combination -hw2
  have hexp : ∀ z, HasDerivAt (fun z => Real.exp (k * z)) (Real.exp (k * z) * k) z := by
    intro z
    have := ((hasDerivAt_id z).const_mul k).exp
    simpa using this
  set G : ℝ → ℝ := fun z => Real.exp (k * z) * (D * n' z + (v + w) / 2 * n z) with hG
  have hGd : ∀ z, 0 < z → HasDerivAt G (3 / 2 * Γ * (nL z * Real.exp (k * z))) z := by
    intro z hz
    have h1 := (hexp z).fun_mul (((h.second z hz.ne').const_mul D).fun_add ((h.first z).const_mul ((v + w) / 2)))
    refine HasDerivAt.congr_deriv h1 ?_
    have e := h.on z hz.ne' (hact z hz)
    linear_combination -Real.exp (k * z) * e + Real.exp (k * z) * n' z * hkD + Real.exp (k * z) * n z * hkk
  have hGc : ContinuousOn G (Icc 0 zmax) := by
    intro z _
    apply ContinuousAt.continuousWithinAt
    exact (hexp z).continuousAt.mul
      ((continuousAt_const.mul (h.cont z)).add (continuousAt_const.mul (h.first z).continuousAt))
  have hint : IntervalIntegrable (fun z => 3 / 2 * Γ * (nL z * Real.exp (k * z))) MeasureTheory.volume 0 zmax := by
    apply ContinuousOn.intervalIntegrable
    rw [uIcc_of_le hz.le]
    exact continuousOn_const.mul (hcont.mul fun z _ => (hexp z).continuousAt.continuousWithinAt)
  have hF := intervalIntegral.integral_eq_sub_of_hasDeriv_right_of_le hz.le hGc
    (fun z hz => (hGd z hz.1).hasDerivWithinAt) hint
  rw [intervalIntegral.integral_const_mul] at hF
  have hend : G zmax = 0 := by
    have h0 : ∀ z, zmax < z → HasDerivAt G 0 z := by
      intro z hz'
      have := hGd z (by linarith)
      rw [hzero z hz'.le] at this
      simpa using this
    have hc : ∀ z, zmax < z → G z = G (zmax + 1) := fun z hz' => const_Ioi h0 hz' (by linarith)
    obtain ⟨M, hM⟩ := h.bounded
    have c0 : G (zmax + 1) / D = 0 := by
      refine bounded_exp (n := n) (n' := n') (b := zmax) (lam := (v + w) / 2 / D) (mu := -k) (M := M)
        (by apply div_nonneg <;> linarith) ?_ (fun z _ => h.first z) hM ?_
      · rw [hk, ← neg_div, neg_sub]
        apply div_pos <;> linarith
      · intro z hz'
        rw [← hc z hz']
        simp only [hG]
        have : Real.exp (k * z) * Real.exp (-(k * z)) = 1 := by
          rw [← Real.exp_add]; simp
        field_simp
        linear_combination -(D * n' z * 2 + (v + w) * n z) * this
    have c1 : G (zmax + 1) = 0 := by
      rcases div_eq_zero_iff.1 c0 with h' | h'
      · exact h'
      · exact absurd h' hD.ne'
    have ct : Tendsto G (𝓝[>] zmax) (𝓝 (G zmax)) := by
      have : ContinuousAt G zmax := (hexp zmax).continuousAt.mul
        ((continuousAt_const.mul (h.cont zmax)).add (continuousAt_const.mul (h.first zmax).continuousAt))
      exact this.tendsto.mono_left nhdsWithin_le_nhds
    have ct' : Tendsto G (𝓝[>] zmax) (𝓝 0) := by
      refine Tendsto.congr' ?_ tendsto_const_nhds
      filter_upwards [self_mem_nhdsWithin] with z hz'
      rw [hc z hz', c1]
    exact tendsto_nhds_unique ct ct'
  rw [hend] at hF
  have hG0 : G 0 = D * n' 0 + (v + w) / 2 * n 0 := by simp [hG]
  rw [hG0] at hF
  linear_combination hF

/-- The baryon density in the broken phase is constant; it is the integral of the left-handed density over
the symmetric phase with the factor `−3Γ/(v+ω)`. -/
theorem C90_baryons {D v Γ R zmax : ℝ} {nL n n' n'' : ℝ → ℝ} (hD : 0 < D) (hv : 0 < v)
    (hΓ : 0 < Γ) (hR : 0 < R) (hz : 0 < zmax)
    (hcont : ContinuousOn nL (Icc 0 zmax)) (hzero : ∀ z, zmax ≤ z → nL z = 0)
    (h : Steady D v Γ R symmetricOnly nL n n' n'') :
    ∀ z ≤ 0, n z = -(3 * Γ / (v + rootOmega D v Γ R)) *
      ∫ z in (0 : ℝ)..zmax, nL z * Real.exp ((v - rootOmega D v Γ R) / (2 * D) * z) := by
  have hwall := steady_wall hD hv hΓ hR hz (fun z hz => hz) hcont hzero h
  have hvw := rootOmega_gt hD hv hΓ hR
  generalize rootOmega D v Γ R = w at *
  obtain ⟨M, hM⟩ := h.bounded
  -- in the broken phase
  have hK : ∀ z, 0 < z → HasDerivAt (fun z => Real.exp (v / D * -z) * n' (-z)) 0 z := by
    intro z hz'
    have h1 : HasDerivAt (fun z => Real.exp (v / D * -z)) (Real.exp (v / D * -z) * (v / D * -1)) z :=
      ((hasDerivAt_neg z).const_mul (v / D)).exp
    have h2 : HasDerivAt (fun z => n' (-z)) (n'' (-z) * -1) z :=
      HasDerivAt.comp z (h.second (-z) (by linarith)) (hasDerivAt_neg z)
    refine HasDerivAt.congr_deriv (h1.fun_mul h2) ?_
    have e := h.off (-z) (by linarith) (by simp only [symmetricOnly, mem_ofPred_eq]; linarith)
    field_simp
    linear_combination Real.exp (-(v * z / D)) * e
  have hc : ∀ z, 0 < z → Real.exp (v / D * -z) * n' (-z) = Real.exp (v / D * -1) * n' (-1) :=
    fun z hz' => const_Ioi hK hz' one_pos
  have c0 : -(Real.exp (v / D * -1) * n' (-1)) = 0 := by
    refine bounded_exp (n := fun z => n (-z)) (n' := fun z => -n' (-z)) (b := 0) (lam := 0) (mu := v / D)
      (M := M) le_rfl (by positivity) ?_ (fun z => hM (-z)) ?_
    · intro z _
      have := HasDerivAt.comp z (h.first (-z)) (hasDerivAt_neg z)
      refine HasDerivAt.congr_deriv this ?_
      ring
    · intro z hz'
      rw [← hc z hz']
      have : Real.exp (v / D * -z) * Real.exp (v / D * z) = 1 := by rw [← Real.exp_add]; simp
      linear_combination n' (-z) * this
  have hn' : ∀ z, z < 0 → n' z = 0 := by
    intro z hz'
    have := hc (-z) (by linarith)
    rw [neg_eq_zero.1 c0, neg_neg] at this
    exact (mul_eq_zero.1 this).resolve_left (Real.exp_pos _).ne'
  have hn0 : n' 0 = 0 := by
    have ct : Tendsto n' (𝓝[<] 0) (𝓝 (n' 0)) := (h.cont 0).tendsto.mono_left nhdsWithin_le_nhds
    refine tendsto_nhds_unique ct (Tendsto.congr' ?_ tendsto_const_nhds)
    filter_upwards [self_mem_nhdsWithin] with z hz'
    rw [hn' z hz']
  have hflat : ∀ z ≤ 0, n z = n 0 := by
    intro z hz'
    refine (constant_of_has_deriv_right_zero (a := z) (b := 0) ?_ ?_ 0 ⟨hz', le_rfl⟩).symm
    · exact fun y _ => (h.first y).continuousAt.continuousWithinAt
    · intro y hy
      have := h.first y
      rw [hn' y hy.2] at this
      exact this.hasDerivWithinAt
  intro z hz'
  rw [hflat z hz']
  rw [hn0] at hwall
  have : v + w ≠ 0 := by linarith
  generalize (∫ z in (0 : ℝ)..zmax, nL z * Real.exp ((v - w) / (2 * D) * z)) = I at *
  field_simp
  linear_combination 2 * hwall

/-- If sphalerons also acted in the broken phase, the density at the wall would have the factor
`−3Γ/(2ω)`. -/
theorem C90_baryons_everywhere {D v Γ R zmax : ℝ} {nL n n' n'' : ℝ → ℝ} (hD : 0 < D) (hv : 0 < v)
    (hΓ : 0 < Γ) (hR : 0 < R) (hz : 0 < zmax)
    (hcont : ContinuousOn nL (Icc 0 zmax)) (hzero : ∀ z, zmax ≤ z → nL z = 0) (hneg : ∀ z < 0, nL z = 0)
    (h : Steady D v Γ R univ nL n n' n'') :
    n 0 = -(3 * Γ / (2 * rootOmega D v Γ R)) *
      ∫ z in (0 : ℝ)..zmax, nL z * Real.exp ((v - rootOmega D v Γ R) / (2 * D) * z) := by
  have hwall := steady_wall hD hv hΓ hR hz (fun z hz => mem_univ z) hcont hzero h
  have hvw := rootOmega_gt hD hv hΓ hR
  have hw2 := rootOmega_sq (v := v) hD hΓ hR
  generalize rootOmega D v Γ R = w at *
  obtain ⟨M, hM⟩ := h.bounded
  obtain ⟨k, hk⟩ : ∃ k, k = (v + w) / (2 * D) := ⟨_, rfl⟩
  have hkD : k * D = (v + w) / 2 := by rw [hk]; field_simp
  have hkk : k * ((v - w) / 2) = -(Γ * R) := by
    rw [hk]; field_simp; linear_combination -hw2
  have hG : ∀ z, 0 < z →
      HasDerivAt (fun z => Real.exp (k * -z) * (D * n' (-z) + (v - w) / 2 * n (-z))) 0 z := by
    intro z hz'
    have h1 : HasDerivAt (fun z => Real.exp (k * -z)) (Real.exp (k * -z) * (k * -1)) z :=
      ((hasDerivAt_neg z).const_mul k).exp
    have h2 : HasDerivAt (fun z => n' (-z)) (n'' (-z) * -1) z :=
      HasDerivAt.comp z (h.second (-z) (by linarith)) (hasDerivAt_neg z)
    have h3 : HasDerivAt (fun z => n (-z)) (n' (-z) * -1) z :=
      HasDerivAt.comp z (h.first (-z)) (hasDerivAt_neg z)
    refine HasDerivAt.congr_deriv (h1.fun_mul ((h2.const_mul D).fun_add (h3.const_mul ((v - w) / 2)))) ?_
    have e := h.on (-z) (by linarith) (mem_univ _)
    rw [hneg (-z) (by linarith)] at e
    linear_combination Real.exp (k * -z) * e - Real.exp (k * -z) * n' (-z) * hkD -
      Real.exp (k * -z) * n (-z) * hkk
  set C := Real.exp (k * -1) * (D * n' (-1) + (v - w) / 2 * n (-1)) with hC
  have hc : ∀ z, 0 < z → Real.exp (k * -z) * (D * n' (-z) + (v - w) / 2 * n (-z)) = C :=
    fun z hz' => const_Ioi hG hz' one_pos
  have c0 : -(C / D) = 0 := by
    refine bounded_exp (n := fun z => n (-z)) (n' := fun z => -n' (-z)) (b := 0) (lam := (w - v) / 2 / D)
      (mu := k) (M := M) (by apply div_nonneg <;> linarith) (by rw [hk]; apply div_pos <;> linarith) ?_
      (fun z => hM (-z)) ?_
    · intro z _
      have := HasDerivAt.comp z (h.first (-z)) (hasDerivAt_neg z)
      refine HasDerivAt.congr_deriv this ?_
      ring
    · intro z hz'
      rw [← hc z hz']
      have : Real.exp (k * -z) * Real.exp (k * z) = 1 := by rw [← Real.exp_add]; simp
      field_simp
      have e : Real.exp (-(z * k)) * Real.exp (z * k) = 1 := by rw [← Real.exp_add]; simp
      linear_combination (2 * D * n' (-z) + (v - w) * n (-z)) * e
  have c1 : C = 0 := by
    rcases div_eq_zero_iff.1 (neg_eq_zero.1 c0) with h' | h'
    · exact h'
    · exact absurd h' hD.ne'
  have hn0 : D * n' 0 + (v - w) / 2 * n 0 = 0 := by
    have cc : ContinuousAt (fun z => D * n' z + (v - w) / 2 * n z) 0 :=
      (continuousAt_const.mul (h.cont 0)).add (continuousAt_const.mul (h.first 0).continuousAt)
    have ct : Tendsto (fun z => D * n' z + (v - w) / 2 * n z) (𝓝[<] 0) (𝓝 _) :=
      cc.tendsto.mono_left nhdsWithin_le_nhds
    refine tendsto_nhds_unique ct (Tendsto.congr' ?_ tendsto_const_nhds)
    filter_upwards [self_mem_nhdsWithin] with z hz'
    have := hc (-z) (by simpa using hz')
    rw [c1, neg_neg] at this
    exact ((mul_eq_zero.1 this).resolve_left (Real.exp_pos _).ne').symm
  have hw0 : w ≠ 0 := by linarith
  generalize (∫ z in (0 : ℝ)..zmax, nL z * Real.exp ((v - w) / (2 * D) * z)) = I at *
  field_simp
  linear_combination 2 * hwall - 2 * hn0

/-! ## What the program returns -/

theorem etaDq_pos {temp : ℝ} (ht : 0 < temp) : 0 < etaDq temp := div_pos (by norm_num) ht

theorem etaGamWS_pos {temp : ℝ} (ht : 0 < temp) : 0 < etaGamWS temp := by
  unfold etaGamWS
  have := Real.pi_pos
  positivity

theorem etaEntropy_pos {temp : ℝ} (ht : 0 < temp) : 0 < etaEntropy temp := by
  unfold etaEntropy
  have := Real.pi_pos
  positivity

/-- The program interpolates the densities at equally spaced points from the wall to the end of the
calculation, and returns the weighted integral of the interpolation. -/
theorem C90_result (spline : List ℝ → ℝ → ℝ → ℝ → ℝ) (n : ℕ) (hn : 0 < n) (zmax temp vw : ℝ) (hz : 0 < zmax)
    (density : ℝ → ℝ → ℝ) :
    ∃ values : List ℝ, values.length = n + 1 ∧
      (∀ i, i ≤ n → values[i]? = some (density zmax (0 + i * (zmax / n)))) ∧
      0 + (n : ℝ) * (zmax / n) = zmax ∧
      let w := rootOmega (6 / temp) vw (etaGamWS temp) (15 / 4)
      etaOf spline n zmax temp vw density = ok (3 * etaGamWS temp / (2 * w * etaEntropy temp) *
        ∫ z in (0 : ℝ)..zmax, spline values 0 (zmax / n) z * Real.exp ((vw - w) / (2 * (6 / temp)) * z)) := by
  have hn0 : (n : ℝ) ≠ 0 := by exact_mod_cast hn.ne'
  have hnpos : (0 : ℝ) < n := by exact_mod_cast hn
  refine ⟨(nlGrid n zmax density).2, by simp [nlGrid], ?_, by field_simp; ring, ?_⟩
  · intro i hi
    simp only [nlGrid, List.getElem?_map, List.getElem?_range (Nat.lt_succ_of_le hi), Option.map_some]
    rw [zero_add, mul_div_assoc]
  · have h0 : (nlGrid n zmax density).1[0]? = some 0 := by
      simp [nlGrid]
    have hl : (nlGrid n zmax density).1[(nlGrid n zmax density).1.length - 1]? = some zmax := by
      simp only [nlGrid, List.length_map, List.length_range, Nat.add_sub_cancel, List.getElem?_map,
        List.getElem?_range (Nat.lt_succ_self n), Option.map_some]
      rw [mul_comm, mul_div_cancel_right₀ _ hn0]
    have h1 : (nlGrid n zmax density).1[1]? = some (zmax / n) := by
      simp only [nlGrid, List.getElem?_map, List.getElem?_range (show 1 < n + 1 by omega), Option.map_some]
      simp
    simp only [etaOf, etaSetClass, h0, hl, h1, if_pos hz, sub_zero, nintegrateEta, etaDq]
    rw [intervalIntegral.integral_symm]
    unfold rootOmega
    congr 1
    ring

/-- What the program returns is, up to the sign, the baryon density at the wall divided by the entropy
density, if sphalerons acted in both phases. -/
theorem C90_asymmetry_partial (spline : List ℝ → ℝ → ℝ → ℝ → ℝ) (m : ℕ) (hm : 0 < m) {zmax temp vw eta : ℝ}
    (hz : 0 < zmax) (ht : 0 < temp) (hv : 0 < vw) (density : ℝ → ℝ → ℝ) {nL n n' n'' : ℝ → ℝ}
    (hcont : ContinuousOn nL (Icc 0 zmax)) (hzero : ∀ z, zmax ≤ z → nL z = 0) (hneg : ∀ z < 0, nL z = 0)
    (hspline : ∀ values : List ℝ, (∀ i, i ≤ m → values[i]? = some (density zmax (0 + i * (zmax / m)))) →
      ∀ z ∈ Icc 0 zmax, spline values 0 (zmax / m) z = nL z)
    (h : Steady (6 / temp) vw (etaGamWS temp) (15 / 4) univ nL n n' n'')
    (he : etaOf spline m zmax temp vw density = ok eta) :
    eta = -(n 0 / etaEntropy temp) := by
  obtain ⟨values, -, hval, -, hr⟩ := C90_result spline m hm zmax temp vw hz density
  have hD : 0 < 6 / temp := by positivity
  have hG := etaGamWS_pos ht
  have hb := C90_baryons_everywhere hD hv hG (by norm_num) hz hcont hzero hneg h
  have hw := rootOmega_gt (R := 15 / 4) hD hv hG (by norm_num)
  simp only at hr
  rw [he, ok.injEq] at hr
  have hi : (∫ z in (0 : ℝ)..zmax, spline values 0 (zmax / m) z *
      Real.exp ((vw - rootOmega (6 / temp) vw (etaGamWS temp) (15 / 4)) / (2 * (6 / temp)) * z)) =
      ∫ z in (0 : ℝ)..zmax, nL z *
      Real.exp ((vw - rootOmega (6 / temp) vw (etaGamWS temp) (15 / 4)) / (2 * (6 / temp)) * z) := by
    apply intervalIntegral.integral_congr
    intro z hz'
    rw [uIcc_of_le hz.le] at hz'
    simp only
    rw [hspline values hval z hz']
  rw [hr, hi, hb]
  have := (etaEntropy_pos ht).ne'
  have hw0 : rootOmega (6 / temp) vw (etaGamWS temp) (15 / 4) ≠ 0 := by linarith
  generalize (∫ z in (0 : ℝ)..zmax, nL z *
      Real.exp ((vw - rootOmega (6 / temp) vw (etaGamWS temp) (15 / 4)) / (2 * (6 / temp)) * z)) = I
  field_simp

/-- Finding: sphalerons are inactive in the broken phase.  The asymmetry there has the opposite sign of what
the program returns, because the integral runs backwards and the factor already has the minus sign, and it is
larger by `2ω/(v+ω)`. -/
theorem C90_asymmetry_fails (spline : List ℝ → ℝ → ℝ → ℝ → ℝ) (m : ℕ) (hm : 0 < m) {zmax temp vw eta : ℝ}
    (hz : 0 < zmax) (ht : 0 < temp) (hv : 0 < vw) (density : ℝ → ℝ → ℝ) {nL n n' n'' : ℝ → ℝ}
    (hcont : ContinuousOn nL (Icc 0 zmax)) (hzero : ∀ z, zmax ≤ z → nL z = 0)
    (hspline : ∀ values : List ℝ, (∀ i, i ≤ m → values[i]? = some (density zmax (0 + i * (zmax / m)))) →
      ∀ z ∈ Icc 0 zmax, spline values 0 (zmax / m) z = nL z)
    (h : Steady (6 / temp) vw (etaGamWS temp) (15 / 4) symmetricOnly nL n n' n'')
    (he : etaOf spline m zmax temp vw density = ok eta) (z : ℝ) (hz0 : z ≤ 0) (hne : n z ≠ 0) :
    let w := rootOmega (6 / temp) vw (etaGamWS temp) (15 / 4)
    let asymmetry := n z / etaEntropy temp
    eta = -((vw + w) / (2 * w)) * asymmetry ∧ |eta| < |asymmetry| ∧ |asymmetry| < 2 * |eta| ∧
      eta * asymmetry < 0 := by
  obtain ⟨values, -, hval, -, hr⟩ := C90_result spline m hm zmax temp vw hz density
  have hD : 0 < 6 / temp := by positivity
  have hG := etaGamWS_pos ht
  have hb := C90_baryons hD hv hG (by norm_num) hz hcont hzero h z hz0
  have hw := rootOmega_gt (R := 15 / 4) hD hv hG (by norm_num)
  have hs := etaEntropy_pos ht
  simp only at hr
  rw [he, ok.injEq] at hr
  have hi : (∫ z in (0 : ℝ)..zmax, spline values 0 (zmax / m) z *
      Real.exp ((vw - rootOmega (6 / temp) vw (etaGamWS temp) (15 / 4)) / (2 * (6 / temp)) * z)) =
      ∫ z in (0 : ℝ)..zmax, nL z *
      Real.exp ((vw - rootOmega (6 / temp) vw (etaGamWS temp) (15 / 4)) / (2 * (6 / temp)) * z) := by
    apply intervalIntegral.integral_congr
    intro z hz'
    rw [uIcc_of_le hz.le] at hz'
    simp only
    rw [hspline values hval z hz']
  have e1 : eta = -((vw + rootOmega (6 / temp) vw (etaGamWS temp) (15 / 4)) /
      (2 * rootOmega (6 / temp) vw (etaGamWS temp) (15 / 4))) * (n z / etaEntropy temp) := by
    rw [hr, hi, hb]
    have hw0 : rootOmega (6 / temp) vw (etaGamWS temp) (15 / 4) ≠ 0 := by linarith
    have hw1 : vw + rootOmega (6 / temp) vw (etaGamWS temp) (15 / 4) ≠ 0 := by linarith
    generalize (∫ z in (0 : ℝ)..zmax, nL z *
        Real.exp ((vw - rootOmega (6 / temp) vw (etaGamWS temp) (15 / 4)) / (2 * (6 / temp)) * z)) = I
    field_simp
  simp only
  refine ⟨e1, ?_⟩
  generalize rootOmega (6 / temp) vw (etaGamWS temp) (15 / 4) = w at *
  have ha : n z / etaEntropy temp ≠ 0 := div_ne_zero hne hs.ne'
  generalize n z / etaEntropy temp = a at *
  have hf1 : (vw + w) / (2 * w) < 1 := by rw [div_lt_one (by linarith)]; linarith
  have hf2 : 1 / 2 < (vw + w) / (2 * w) := by
    rw [div_lt_div_iff₀ (by norm_num) (by linarith)]; linarith
  generalize (vw + w) / (2 * w) = f at *
  have hp := abs_pos.2 ha
  have habs : |eta| = f * |a| := by rw [e1, abs_mul, abs_neg, abs_of_pos (by linarith)]
  refine ⟨by rw [habs]; nlinarith, by rw [habs]; nlinarith, ?_⟩
  rw [e1]
  have : 0 < a * a := mul_self_pos.2 ha
  nlinarith

end Verif.Via
