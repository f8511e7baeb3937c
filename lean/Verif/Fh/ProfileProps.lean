import Verif.Fh.Profile
import Verif.Fh.Spec
import Verif.Via.AsymmetryExample
import Mathlib.Analysis.Calculus.Deriv.Mul
import Mathlib.Analysis.SpecialFunctions.Trigonometric.Deriv
import Mathlib.Analysis.Calculus.Deriv.Pow
import Mathlib.Analysis.Calculus.Deriv.Pi
import Mathlib.Algebra.BigOperators.Fin
import Mathlib.Tactic.LinearCombination
import Mathlib.Tactic.FieldSimp

set_option linter.unusedVariables false

/-!
# C93: the wall and the asymmetry in the semi-classical force approach
-/

namespace Verif.Fh

open Set Verif Outcome Filter Topology

private theorem tanh_eq (x : ℝ) : Real.tanh x = 1 - 2 / (Real.exp (2 * x) + 1) := by
  rw [Real.tanh_eq_sinh_div_cosh, Real.sinh_eq, Real.cosh_eq, Real.exp_neg,
    show 2 * x = x + x by ring, Real.exp_add]
  have h := Real.exp_pos x
  have : Real.exp x * Real.exp x + 1 ≠ 0 := by positivity
  field_simp
  ring

private theorem tanh_top : Tendsto Real.tanh atTop (𝓝 1) := by
  have h : Tendsto (fun x : ℝ => 1 - 2 / (Real.exp (2 * x) + 1)) atTop (𝓝 (1 - 0)) := by
    apply Tendsto.sub tendsto_const_nhds
    apply Tendsto.div_atTop tendsto_const_nhds
    apply tendsto_atTop_add_const_right
    exact Real.tendsto_exp_atTop.comp (tendsto_id.const_mul_atTop (by norm_num))
  rw [sub_zero] at h
  exact h.congr fun x => (tanh_eq x).symm

private theorem tanh_bot : Tendsto Real.tanh atBot (𝓝 (-1)) := by
  have h := (tanh_top.comp tendsto_neg_atBot_atTop).neg
  refine h.congr fun x => ?_
  simp [Real.tanh_neg]

theorem tanh_deriv (lw z : ℝ) : HasDerivAt (fun z => Real.tanh (z / lw))
    ((1 - Real.tanh (z / lw) * Real.tanh (z / lw)) / lw) z := by
  have hc : ∀ x, Real.cosh x ≠ 0 := fun x => (Real.cosh_pos x).ne'
  have ht : ∀ x, HasDerivAt Real.tanh (1 - Real.tanh x * Real.tanh x) x := by
    intro x
    have := (Real.hasDerivAt_sinh x).div (Real.hasDerivAt_cosh x) (hc x)
    refine (this.congr_of_eventuallyEq (Eventually.of_forall fun y => ?_)).congr_deriv ?_
    · exact Real.tanh_eq_sinh_div_cosh y
    · rw [Real.tanh_eq_sinh_div_cosh]
      have := hc x
      field_simp
  have hdiv : HasDerivAt (fun z : ℝ => z / lw) (1 / lw) z := (hasDerivAt_id z).div_const lw
  refine (HasDerivAt.comp (h₂ := Real.tanh) z (ht (z / lw)) hdiv).congr_deriv ?_
  ring

theorem tanh_lim {lw : ℝ} (hl : 0 < lw) : Tendsto (fun z => Real.tanh (z / lw)) atBot (𝓝 (-1)) ∧
    Tendsto (fun z => Real.tanh (z / lw)) atTop (𝓝 1) :=
  ⟨tanh_bot.comp (tendsto_id.atBot_div_const hl), tanh_top.comp (tendsto_id.atTop_div_const hl)⟩

/-- The fields interpolate between the minimum in the broken phase, far behind the wall, and the origin, far in
front of it; the derivative of the program is the derivative of the fields. -/
theorem C93_vev (vc : List ℝ) {lw : ℝ} (hl : 0 < lw) :
    (∀ z, (calculateVev vc lw z).length = vc.length ∧ (calculateVevDerivative vc lw z).length = vc.length) ∧
    ∀ (i : ℕ) (v : ℝ), vc[i]? = some v → ∃ f f' : ℝ → ℝ,
      (∀ z, (calculateVev vc lw z)[i]? = some (f z) ∧ (calculateVevDerivative vc lw z)[i]? = some (f' z)) ∧
      (∀ z, HasDerivAt f (f' z) z) ∧ f 0 = v / 2 ∧ Tendsto f atBot (𝓝 v) ∧ Tendsto f atTop (𝓝 0) := by
  refine ⟨fun z => by simp [calculateVev, calculateVevDerivative], fun i v hv => ?_⟩
  refine ⟨fun z => 1 / 2 * v * (1 - Real.tanh (z / lw)),
    fun z => 1 / 2 * v * (-(1 - Real.tanh (z / lw) * Real.tanh (z / lw)) / lw), fun z => ?_, fun z => ?_, ?_, ?_, ?_⟩
  · simp [calculateVev, calculateVevDerivative, hv]
  · refine (((tanh_deriv lw z).const_sub 1).const_mul (1 / 2 * v)).congr_deriv ?_
    ring
  · simp; ring
  · have := ((tanh_lim hl).1.const_sub 1).const_mul (1 / 2 * v)
    rwa [show 1 / 2 * v * (1 - -1) = v by ring] at this
  · have := ((tanh_lim hl).2.const_sub 1).const_mul (1 / 2 * v)
    rwa [show 1 / 2 * v * (1 - 1) = 0 by ring] at this

/-- Finding: the fields do not end at a minimum of the symmetric phase with a singlet that is not zero. -/
theorem C93_symmetric_fails (vc vs : List ℝ) {lw : ℝ} (hl : 0 < lw) (i : ℕ) (v s : ℝ) (hv : vc[i]? = some v)
    (hs : vs[i]? = some s) (h0 : s ≠ 0) :
    ¬ ∃ f : ℝ → ℝ, (∀ z, (calculateVev vc lw z)[i]? = some (f z)) ∧ Tendsto f atTop (𝓝 s) := by
  rintro ⟨f, hf, ht⟩
  obtain ⟨g, g', hg, -, -, -, hlim⟩ := (C93_vev vc hl).2 i v hv
  have : f = g := by
    funext z
    have := (hf z).symm.trans (hg z).1
    simpa using this
  subst this
  exact h0 (tendsto_nhds_unique ht hlim)

/-- The phase interpolates between the values of the two phases, and the derivatives of the program are its
derivatives. -/
theorem C93_theta (vc : List ℝ) (h8 : 8 ≤ vc.length) (sym brk : ℝ) {lw : ℝ} (hl : 0 < lw) :
    ∃ t t' t'' : ℝ → ℝ, (∀ z, calculateTheta vc sym brk lw z 0 = ok (t z) ∧
      calculateTheta vc sym brk lw z 1 = ok (t' z) ∧ calculateTheta vc sym brk lw z 2 = ok (t'' z)) ∧
      (∀ z, HasDerivAt t (t' z) z) ∧ (∀ z, HasDerivAt t' (t'' z) z) ∧ t 0 = (brk + sym) / 2 ∧
      Tendsto t atBot (𝓝 brk) ∧ Tendsto t atTop (𝓝 sym) := by
  have hn : ¬ vc.length ≤ 7 := by omega
  refine ⟨fun z => brk - 1 / 2 * (brk - sym) * (1 + Real.tanh (z / lw)),
    fun z => -(brk - sym) / (2 * lw) * (1 - Real.tanh (z / lw) * Real.tanh (z / lw)),
    fun z => (brk - sym) * Real.tanh (z / lw) / (lw * lw) * (1 - Real.tanh (z / lw) * Real.tanh (z / lw)),
    fun z => ?_, fun z => ?_, fun z => ?_, ?_, ?_, ?_⟩
  · simp [calculateTheta, hn]
  · refine ((((tanh_deriv lw z).const_add 1).const_mul (1 / 2 * (brk - sym))).const_sub brk).congr_deriv ?_
    have := hl.ne'
    field_simp
  · have hd := tanh_deriv lw z
    refine (((hd.fun_mul hd).const_sub 1).const_mul (-(brk - sym) / (2 * lw))).congr_deriv ?_
    have := hl.ne'
    field_simp
    ring
  · simp; ring
  · have := (((tanh_lim hl).1.const_add 1).const_mul (1 / 2 * (brk - sym))).const_sub brk
    rwa [show brk - 1 / 2 * (brk - sym) * (1 + -1) = brk by ring] at this
  · have := (((tanh_lim hl).2.const_add 1).const_mul (1 / 2 * (brk - sym))).const_sub brk
    rwa [show brk - 1 / 2 * (brk - sym) * (1 + 1) = sym by ring] at this

/-- Finding: models with fewer than eight fields always end with an exception, although the values that are
accessed are not used. -/
theorem C93_fields_fails (vc : List ℝ) (h : vc.length < 8) (sym brk lw z : ℝ) (diff : Int) :
    calculateTheta vc sym brk lw z diff = err .outOfRange := by
  simp [calculateTheta, show vc.length ≤ 7 by omega]

/-- The derivative of the squared top mass along the wall is the sum that the program computes. -/
theorem C93_mass {n : ℕ} (m : (Fin n → ℝ) → ℝ) (v v' : ℝ → Fin n → ℝ) (g : Fin n → ℝ) (z : ℝ)
    (hv : ∀ i, HasDerivAt (fun z => v z i) (v' z i) z) (L : (Fin n → ℝ) →L[ℝ] ℝ) (hm : HasFDerivAt m L (v z))
    (hg : ∀ i, L (Pi.single i 1) = g i) :
    HasDerivAt (fun z => m (v z)) (dmtSquared (List.ofFn (v' z)) (List.ofFn g)) z := by
  have h1 : HasDerivAt v (v' z) z := hasDerivAt_pi.2 hv
  refine (hm.comp_hasDerivAt z h1).congr_deriv ?_
  have e : L (v' z) = ∑ i, v' z i * g i := by
    conv_lhs => rw [← Finset.univ_sum_single (v' z)]
    rw [map_sum]
    refine Finset.sum_congr rfl fun i _ => ?_
    have : (Pi.single i (v' z i) : Fin n → ℝ) = v' z i • Pi.single i 1 := by
      rw [← Pi.single_smul, smul_eq_mul, mul_one]
    rw [this, map_smul, hg, smul_eq_mul]
  rw [e, dmtSquared]
  have : List.zipWith (· * ·) (List.ofFn (v' z)) (List.ofFn g) = List.ofFn fun i => v' z i * g i := by
    apply List.ext_getElem
    · simp
    · intro k h1 h2; simp
  rw [this, List.sum_ofFn]

/-- The source of the equations without velocities is the derivative of the source without the terms with the
third derivative of the phase, the second derivative of the mass and the derivatives of the factors. -/
theorem C93_source_partial (c : Coeffs ℝ) (m dm ddm d d2 : ℝ → ℝ) (d3 z : ℝ)
    (hm : HasDerivAt m (dm z) z) (hdm : HasDerivAt dm (ddm z) z) (hd : HasDerivAt d (d2 z) z)
    (hd2 : HasDerivAt d2 d3 z) :
    HasDerivAt (fun z => st { c with mt2 := m z, dmt2 := dm z } (d z) (d2 z))
      (dst { c with mt2 := m z, dmt2 := dm z } (d z) (d2 z) +
        (-c.vw * c.k8t * (m z * d3 + ddm z * d z) + c.vw * c.k9t * d z * m z * ddm z)) z := by
  have h := (((hm.fun_mul hd2).fun_add (hdm.fun_mul hd)).const_mul (-c.vw * c.k8t)).fun_add
    ((((hd.const_mul (c.vw * c.k9t)).fun_mul hm).fun_mul hdm))
  refine HasDerivAt.congr_deriv h ?_
  simp only [dst]
  ring

/-- Finding: it is not the derivative; with a constant mass it is even zero. -/
theorem C93_source_fails : ∃ (c : Coeffs ℝ) (d d2 : ℝ → ℝ) (s : ℝ), (∀ z, HasDerivAt d (d2 z) z) ∧
    (∀ z, HasDerivAt (fun z => st c (d z) (d2 z)) s z) ∧ s ≠ 0 ∧ ∀ z, dst c (d z) (d2 z) = 0 := by
  refine ⟨⟨1, 1, 1, 1, 1, 1, 1, 1, 1, 1, 1, 1, 1, 1, 0, 1, 1, 1⟩, fun z => z ^ 2, fun z => 2 * z, -2, fun z => ?_,
    fun z => ?_, by norm_num, fun z => by simp [dst]⟩
  · simpa using hasDerivAt_pow 2 z
  · have : (fun z : ℝ => st (⟨1, 1, 1, 1, 1, 1, 1, 1, 1, 1, 1, 1, 1, 1, 0, 1, 1, 1⟩ : Coeffs ℝ) (z ^ 2) (2 * z)) =
        fun z => -2 * z := by
      funext z; simp [st]
    rw [this]
    simpa using (hasDerivAt_id z).const_mul (-2 : ℝ)

/-- A steady density of baryons in front of the wall, with the sphaleron rate per particle `Γ`. -/
structure Steady (T v Γ : ℝ) (mu n n' : ℝ → ℝ) : Prop where
  bounded : ∃ M, ∀ z, |n z| ≤ M
  cont : ContinuousOn n (Ici 0)
  deriv : ∀ z, 0 < z → HasDerivAt n (n' z) z
  eq : ∀ z, 0 < z → v * n' z = 45 / 4 * Γ * n z - 9 / 2 * Γ * T ^ 2 * mu z

/-- The entropy density with `g*` degrees of freedom. -/
noncomputable def entropy (g T : ℝ) : ℝ := 2 * Real.pi ^ 2 * g * T ^ 3 / 45

/-- The asymmetry of the program is the baryon density at the wall over the entropy density. -/
theorem C93_eta {T v zmax : ℝ} {mu n n' : ℝ → ℝ} (hT : 0 < T) (hv : 0 < v) (hz : 0 < zmax)
    (hmu : ContinuousOn mu (Icc 0 zmax)) (hfar : ∀ z, zmax < z → mu z = 0)
    (h : Steady T v (T / 1000000) mu n n') :
    eta mu zmax T v = n 0 / entropy 106.75 T := by
  obtain ⟨M, hM⟩ := h.bounded
  obtain ⟨nu, hnu⟩ : ∃ nu, nu = 45 * (1 / 1000000 * T) / (4 * v) := ⟨_, rfl⟩
  have hnu0 : 0 < nu := by rw [hnu]; positivity
  have hn' : ∀ z, 0 < z → n' z = nu * n z - 9 / 2 * (T / 1000000) * T ^ 2 / v * mu z := by
    intro z hz'
    have := h.eq z hz'
    rw [hnu]
    field_simp
    linear_combination 8000000 * this
  have hexp : ∀ z : ℝ, HasDerivAt (fun z => Real.exp (-nu * z)) (Real.exp (-nu * z) * -nu) z := by
    intro z
    simpa using ((hasDerivAt_id z).const_mul (-nu)).exp
  -- beyond the interval
  have far : ∀ z, zmax < z → n z = 0 := by
    have hder : ∀ z, zmax < z → HasDerivAt (fun z => Real.exp (-nu * z) * n z) 0 z := by
      intro z hz'
      refine ((hexp z).fun_mul (h.deriv z (hz.trans hz'))).congr_deriv ?_
      rw [hn' z (hz.trans hz'), hfar z hz']
      ring
    have hc : ∀ z, zmax < z → Real.exp (-nu * z) * n z = Real.exp (-nu * (zmax + 1)) * n (zmax + 1) :=
      fun z hz' => Via.const_Ioi hder hz' (by linarith)
    have c0 := Via.bounded_exp (n := n) (n' := n') (b := zmax) (lam := 0) (mu := nu)
      (c := nu * (Real.exp (-nu * (zmax + 1)) * n (zmax + 1))) (M := M) le_rfl hnu0
      (fun z hz' => h.deriv z (hz.trans hz')) hM (by
        intro z hz'
        rw [← hc z hz', hn' z (hz.trans hz'), hfar z hz', neg_mul, Real.exp_neg]
        have := (Real.exp_pos (nu * z)).ne'
        field_simp
        ring)
    intro z hz'
    have h1 := hc z hz'
    have h2 : Real.exp (-nu * (zmax + 1)) * n (zmax + 1) = 0 := by
      rcases mul_eq_zero.1 c0 with h | h
      · exact absurd h hnu0.ne'
      · exact h
    rw [h2] at h1
    rcases mul_eq_zero.1 h1 with h | h
    · exact absurd h (Real.exp_pos _).ne'
    · exact h
  have nz : n zmax = 0 := by
    have hc := (h.deriv zmax hz).continuousAt
    have h1 : Tendsto n (𝓝[>] zmax) (𝓝 (n zmax)) := hc.continuousWithinAt
    have h2 : Tendsto n (𝓝[>] zmax) (𝓝 0) :=
      tendsto_const_nhds.congr' (eventually_nhdsWithin_of_forall fun z hz' => (far z hz').symm)
    exact tendsto_nhds_unique h1 h2
  have key : ∫ z in (0 : ℝ)..zmax, -(9 / 2 * (T / 1000000) * T ^ 2 / v) * (mu z * Real.exp (-nu * z)) =
      Real.exp (-nu * zmax) * n zmax - Real.exp (-nu * 0) * n 0 := by
    refine intervalIntegral.integral_eq_sub_of_hasDerivAt_of_le (f := fun z => Real.exp (-nu * z) * n z) hz.le
      ?_ ?_ ?_
    · exact (Continuous.continuousOn (by fun_prop)).mul (h.cont.mono fun z hz => hz.1)
    · intro z hz'
      refine ((hexp z).fun_mul (h.deriv z hz'.1)).congr_deriv ?_
      rw [hn' z hz'.1]
      ring
    · apply ContinuousOn.intervalIntegrable
      rw [uIcc_of_le hz.le]
      exact continuousOn_const.mul (hmu.mul (Continuous.continuousOn (by fun_prop)))
  rw [nz, mul_zero, mul_zero, Real.exp_zero, one_mul, zero_sub, intervalIntegral.integral_const_mul] at key
  have n0 : n 0 = 9 / 2 * (T / 1000000) * T ^ 2 / v * ∫ z in (0 : ℝ)..zmax, mu z * Real.exp (-nu * z) := by
    linear_combination key
  unfold eta
  simp only
  rw [← hnu, n0]
  generalize (∫ z in (0 : ℝ)..zmax, mu z * Real.exp (-nu * z)) = I
  have hpi := Real.pi_ne_zero
  unfold entropy
  norm_num
  field_simp
  ring

/-- A steady density that is not zero. -/
example : ∃ mu n n' : ℝ → ℝ, ContinuousOn mu (Icc 0 1) ∧ (∀ z, 1 < z → mu z = 0) ∧
    Steady 1 1 (1 / 1000000) mu n n' ∧ n 0 = 2 := by
  have hf : ∀ z : ℝ, HasDerivAt (fun z => Real.cos (Real.pi * z) + 1) (-Real.sin (Real.pi * z) * Real.pi) z := by
    intro z
    simpa using (((hasDerivAt_id z).const_mul Real.pi).cos).add_const 1
  have hg : ∀ z : ℝ, HasDerivAt (fun _ : ℝ => (0 : ℝ)) ((fun _ : ℝ => (0 : ℝ)) z) z := fun z => hasDerivAt_const _ _
  have hd := Via.ite_deriv hf hg (a := 1) (by simp) (by simp)
  refine ⟨fun z => if z ≤ 1 then (45 / 4 * (1 / 1000000) * (Real.cos (Real.pi * z) + 1) +
      Real.sin (Real.pi * z) * Real.pi) / (9 / 2 * (1 / 1000000)) else 0,
    fun z => if z ≤ 1 then Real.cos (Real.pi * z) + 1 else 0,
    fun z => if z ≤ 1 then -Real.sin (Real.pi * z) * Real.pi else 0, ?_, fun z hz => if_neg (not_le.2 hz), ?_, ?_⟩
  · refine ContinuousOn.congr (f := fun z => (45 / 4 * (1 / 1000000) * (Real.cos (Real.pi * z) + 1) +
      Real.sin (Real.pi * z) * Real.pi) / (9 / 2 * (1 / 1000000))) ?_ fun z hz => if_pos hz.2
    exact Continuous.continuousOn (by fun_prop)
  · refine ⟨⟨2, fun z => ?_⟩, fun z _ => (hd z).continuousAt.continuousWithinAt, fun z _ => hd z, fun z _ => ?_⟩
    · have h1 := Real.neg_one_le_cos (Real.pi * z)
      have h2 := Real.cos_le_one (Real.pi * z)
      split_ifs
      · rw [abs_le]; constructor <;> linarith
      · simp
    · split_ifs
      · ring
      · ring
  · norm_num

/-- The values of the spline are the chemical potentials at the ends of hundred equal parts of the interval; an
exact spline gives the exact asymmetry. -/
theorem C93_spline (spline : List ℝ → ℝ → ℝ → ℝ → ℝ) (mu : ℝ → ℝ) (zmax tc vw : ℝ) (hz : 0 ≤ zmax) :
    ∃ values : List ℝ, values.length = 101 ∧
      (∀ i : ℕ, i ≤ 100 → values[i]? = some (mu (zmax * i / 100))) ∧
      ((∀ z ∈ Icc 0 zmax, spline values 0 (zmax / 100) z = mu z) → etaOf spline mu zmax tc vw = eta mu zmax tc vw) := by
  refine ⟨(List.range 101).map fun i : ℕ => mu (i * ((zmax - 0) / 100)), by simp, fun i hi => ?_, fun h => ?_⟩
  · rw [List.getElem?_map, List.getElem?_range (by omega), Option.map_some]
    congr 2
    ring
  · unfold etaOf eta
    simp only
    congr 1
    apply intervalIntegral.integral_congr
    intro z hz'
    rw [uIcc_of_le hz] at hz'
    simp only
    rw [sub_zero] at *
    rw [h z hz']

/-- The cut changes the driving potential by no more than the factors times `1e-16`. -/
theorem C93_cut (k1t k1b : ℝ) (ht : 0 ≤ k1t) (hb : 0 ≤ k1b) (x : Fin 8 → ℝ) :
    |mublFunc k1t k1b x - mubl k1t k1b x| ≤ (1 + 4 * k1t + 2 * k1b) / 10 ^ 16 := by
  have cut : ∀ i, |(if |x i| ≤ 1 / 10 ^ 16 then 0 else x i) - x i| ≤ 1 / 10 ^ 16 := by
    intro i
    split_ifs with h
    · simpa using h
    · simp
  have c0 := abs_le.1 (cut 0)
  have c1 := abs_le.1 (cut 1)
  have c2 := abs_le.1 (cut 2)
  simp only [mublFunc, mubl]
  generalize (if |x 0| ≤ 1 / 10 ^ 16 then 0 else x 0) = y0 at *
  generalize (if |x 1| ≤ 1 / 10 ^ 16 then 0 else x 1) = y1 at *
  generalize (if |x 2| ≤ 1 / 10 ^ 16 then 0 else x 2) = y2 at *
  rw [abs_le]
  constructor
  · have := mul_le_mul_of_nonneg_left c0.1 (show 0 ≤ 1 / 2 * (1 + 4 * k1t) by linarith)
    have := mul_le_mul_of_nonneg_left c1.1 (show 0 ≤ 1 / 2 * (1 + 4 * k1b) by linarith)
    have := mul_le_mul_of_nonneg_left c2.2 (show 0 ≤ 2 * k1t by linarith)
    linarith
  · have := mul_le_mul_of_nonneg_left c0.2 (show 0 ≤ 1 / 2 * (1 + 4 * k1t) by linarith)
    have := mul_le_mul_of_nonneg_left c1.2 (show 0 ≤ 1 / 2 * (1 + 4 * k1b) by linarith)
    have := mul_le_mul_of_nonneg_left c2.1 (show 0 ≤ 2 * k1t by linarith)
    linarith

end Verif.Fh
