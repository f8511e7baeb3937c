import Verif.Spectrum.Gauge
import Verif.Yukawa.Masses
import Verif.Yukawa.SM
import Verif.Yukawa.CxSM
import Verif.Yukawa.CPintheDark
import Verif.Yukawa.TwoHDMProps
import Verif.Lagrangian.SM.Props
import Verif.Lagrangian.CxSM.Counter
import Verif.Lagrangian.CPintheDark.Counter
import Verif.Lagrangian.R2HDM.Counter
import Verif.Lagrangian.C2HDM.Counter
import Verif.Lagrangian.N2HDM.Counter

/-!
# The constants of the standard model and the masses at the vacuum
-/

set_option linter.unusedSimpArgs false

namespace Verif.Spectrum

open Matrix Polynomial Yukawa Lagrangian
open scoped BigOperators

/-! ### The constants -/

/-- A rotation of the second and the third generation. -/
theorem rotation23_unitary (s c : ℝ) (h : s ^ 2 + c ^ 2 = 1) :
    (!![1, 0, 0; 0, (c : ℂ), s; 0, -s, c] : Matrix (Fin 3) (Fin 3) ℂ) ∈ unitaryGroup (Fin 3) ℂ := by
  have h' : (s : ℂ) ^ 2 + (c : ℂ) ^ 2 = 1 := by exact_mod_cast h
  rw [mem_unitaryGroup_iff, star_eq_conjTranspose]
  ext i j
  fin_cases i <;> fin_cases j <;> simp [Matrix.mul_apply, Fin.sum_univ_three] <;>
    first | ring1 | linear_combination h'

/-- A rotation of the first and the second generation. -/
theorem rotation12_unitary (s c : ℝ) (h : s ^ 2 + c ^ 2 = 1) :
    (!![(c : ℂ), s, 0; -s, c, 0; 0, 0, 1] : Matrix (Fin 3) (Fin 3) ℂ) ∈ unitaryGroup (Fin 3) ℂ := by
  have h' : (s : ℂ) ^ 2 + (c : ℂ) ^ 2 = 1 := by exact_mod_cast h
  rw [mem_unitaryGroup_iff, star_eq_conjTranspose]
  ext i j
  fin_cases i <;> fin_cases j <;> simp [Matrix.mul_apply, Fin.sum_univ_three] <;>
    first | ring1 | linear_combination h'

/-- A rotation of the first and the third generation with a phase. -/
theorem rotation13_unitary (s c : ℝ) (h : s ^ 2 + c ^ 2 = 1) (z w : ℂ) (hz : z * w = 1)
    (hw : (starRingEnd ℂ) z = w) :
    (!![(c : ℂ), 0, s * w; 0, 1, 0; -s * z, 0, c] : Matrix (Fin 3) (Fin 3) ℂ) ∈
      unitaryGroup (Fin 3) ℂ := by
  have h' : (s : ℂ) ^ 2 + (c : ℂ) ^ 2 = 1 := by exact_mod_cast h
  have hw' : (starRingEnd ℂ) w = z := by rw [← hw, Complex.conj_conj]
  rw [mem_unitaryGroup_iff, star_eq_conjTranspose]
  ext i j
  fin_cases i <;> fin_cases j <;>
    simp [Matrix.mul_apply, Fin.sum_univ_three, hw, hw'] <;>
    first | ring1 | linear_combination h' + (s : ℂ) ^ 2 * hz

/-- The CKM matrix is unitary for all values of the Wolfenstein parameters. -/
theorem C79_ckm_unitary (x : Numbers) : (getSMConstants x).ckm ∈ unitaryGroup (Fin 3) ℂ := by
  set a := wolfenstein x.lam x.A x.rho x.eta with ha
  have e3 : Complex.exp (Complex.I * a.delta) * Complex.exp (-a.delta * Complex.I) = 1 := by
    rw [← Complex.exp_add]
    simp [mul_comm]
  have e4 : (starRingEnd ℂ) (Complex.exp (Complex.I * a.delta)) =
      Complex.exp (-a.delta * Complex.I) := by
    rw [← Complex.exp_conj]
    simp [mul_comm]
  have hp := mul_mem (mul_mem
    (rotation23_unitary _ _ (Real.sin_sq_add_cos_sq a.theta23))
    (rotation13_unitary _ _ (Real.sin_sq_add_cos_sq a.theta13) _ _ e3 e4))
    (rotation12_unitary _ _ (Real.sin_sq_add_cos_sq a.theta12))
  have e : (getSMConstants x).ckm = !![1, 0, 0; 0, ((Real.cos a.theta23 : ℝ) : ℂ),
      ((Real.sin a.theta23 : ℝ) : ℂ); 0, -((Real.sin a.theta23 : ℝ) : ℂ),
      ((Real.cos a.theta23 : ℝ) : ℂ)] * !![((Real.cos a.theta13 : ℝ) : ℂ), 0,
      ((Real.sin a.theta13 : ℝ) : ℂ) * Complex.exp (-a.delta * Complex.I); 0, 1, 0;
      -((Real.sin a.theta13 : ℝ) : ℂ) * Complex.exp (Complex.I * a.delta), 0,
      ((Real.cos a.theta13 : ℝ) : ℂ)] * !![((Real.cos a.theta12 : ℝ) : ℂ),
      ((Real.sin a.theta12 : ℝ) : ℂ), 0; -((Real.sin a.theta12 : ℝ) : ℂ),
      ((Real.cos a.theta12 : ℝ) : ℂ), 0; 0, 0, 1] := by
    simp only [Constants.ckm, getSMConstants, ← ha]
    generalize Complex.exp (Complex.I * a.delta) = z at *
    generalize Complex.exp (-a.delta * Complex.I) = w at *
    ext i j
    fin_cases i <;> fin_cases j <;> simp [Matrix.mul_apply, Fin.sum_univ_three] <;> ring
  rw [e]
  exact hp

/-- The vacuum expectation value of the Fermi constant, and the masses of the gauge bosons. -/
theorem C79_constants (x : Numbers) (hG : 0 < x.GF) (hZ : x.mW ^ 2 ≤ x.mZ ^ 2) :
    0 < (getSMConstants x).vev0 ∧ √2 * x.GF * (getSMConstants x).vev0 ^ 2 = 1 ∧
      (getSMConstants x).g * (getSMConstants x).vev0 / 2 = x.mW ∧
      ((getSMConstants x).g ^ 2 + (getSMConstants x).gs ^ 2) * (getSMConstants x).vev0 ^ 2 / 4 =
        x.mZ ^ 2 := by
  have hv : 0 < √(1 / √2 * 1 / x.GF) := by positivity
  have hv2 : √(1 / √2 * 1 / x.GF) ^ 2 = 1 / √2 * 1 / x.GF := Real.sq_sqrt (by positivity)
  have hm : √(x.mZ ^ 2 - x.mW ^ 2) ^ 2 = x.mZ ^ 2 - x.mW ^ 2 := Real.sq_sqrt (by linarith)
  refine ⟨hv, ?_, ?_, ?_⟩
  · simp only [getSMConstants, hv2]
    have : √(2 : ℝ) ≠ 0 := by positivity
    field_simp
  · simp only [getSMConstants]
    field_simp
  · simp only [getSMConstants]
    generalize √(1 / √2 * 1 / x.GF) = v at hv
    field_simp
    rw [hm]
    ring

/-- The numbers of the program meet the hypotheses. -/
example : 0 < numbers.GF ∧ numbers.mW ^ 2 ≤ numbers.mZ ^ 2 := by
  unfold numbers
  norm_num

/-- The other constants are the numbers. -/
theorem C79_constants_masses (x : Numbers) :
    (getSMConstants x).up = ![x.mUp, x.mCharm, x.mTop] ∧
      (getSMConstants x).down = ![x.mDown, x.mStrange, x.mBottom] ∧
      (getSMConstants x).charged = ![x.mElectron, x.mMu, x.mTau] ∧
      (getSMConstants x).mW = x.mW ∧ (getSMConstants x).mZ = x.mZ :=
  ⟨rfl, rfl, rfl, rfl, rfl⟩

/-- The spectrum `0, m_W, m_W, m_Z` of the gauge bosons. -/
noncomputable def _root_.Verif.Yukawa.Spec.gaugeSpectrum (mW mZ : ℝ) : ℝ[X] :=
  X * (X - C (mW ^ 2)) ^ 2 * (X - C (mZ ^ 2))

/-- The gauge bosons in a neutral vacuum. -/
theorem pauliGauge_neutral (g gs N : ℝ) :
    (pauliGauge g gs N 0 0 (-N)).charpoly =
      X * (X - C (g ^ 2 * N / 4)) ^ 2 * (X - C ((g ^ 2 + gs ^ 2) * N / 4)) := by
  rw [pauliGauge_charpoly]
  have e1 : (C ((g ^ 2 + gs ^ 2) * N / 4) : ℝ[X]) = C (g ^ 2 * N / 4) + C (gs ^ 2 * N / 4) := by
    rw [← C_add]; congr 1; ring
  have e2 : (C (g ^ 2 * gs ^ 2 * (0 ^ 2 + 0 ^ 2 + (-N) ^ 2) / 16) : ℝ[X]) =
      C (g ^ 2 * N / 4) * C (gs ^ 2 * N / 4) := by
    rw [← C_mul]; congr 1; ring
  rw [e1, e2]
  ring

theorem neutral_spectrum (x : Numbers) (hG : 0 < x.GF) (hZ : x.mW ^ 2 ≤ x.mZ ^ 2) (N : ℝ)
    (hN : N = (getSMConstants x).vev0 ^ 2) :
    (pauliGauge (getSMConstants x).g (getSMConstants x).gs N 0 0 (-N)).charpoly =
      Yukawa.Spec.gaugeSpectrum x.mW x.mZ := by
  obtain ⟨_, _, h1, h2⟩ := C79_constants x hG hZ
  rw [pauliGauge_neutral, hN, h2, ← h1, Yukawa.Spec.gaugeSpectrum]
  congr 5
  ring

/-! ### The gauge bosons at the vacuum -/

/-- In the vacuum of the standard model the gauge bosons have the squared masses `0`, `m_W²`, `m_W²`
and `m_Z²`. -/
theorem C79_sm_gauge (x : Numbers) (hG : 0 < x.GF) (hZ : x.mW ^ 2 ≤ x.mZ ^ 2)
    (D : Matrix (Fin 4) (Fin 4) ℝ) :
    (gaugeMatrix (SM.gauge (getSMConstants x).g (getSMConstants x).gs) D 0
      (SM.vevTree (getSMConstants x).vev0)).charpoly = Yukawa.Spec.gaugeSpectrum x.mW x.mZ := by
  rw [gaugeMatrix_one (getSMConstants x).g (getSMConstants x).gs _ D _
    (fun a b i j => (SM.C77_sm_gauge_symmetric _ _ a b i j).1) _ _ _ _
    (fun W => SM.C77_sm_gauge _ _ W _)]
  rw [← neutral_spectrum x hG hZ _ rfl]
  congr 2 <;> simp [SM.vevTree]

/-- In the vacuum of the model with a complex singlet, if the input `vh` is the constant of the
standard model. -/
theorem C79_cxsm_gauge_partial (x : Numbers) (hG : 0 < x.GF) (hZ : x.mW ^ 2 ≤ x.mZ ^ 2) (vs va : ℝ)
    (D : Matrix (Fin 4) (Fin 4) ℝ) :
    (gaugeMatrix (CxSM.gauge (getSMConstants x).g (getSMConstants x).gs) D 0
      (CxSM.vevTree (getSMConstants x).vev0 vs va)).charpoly =
        Yukawa.Spec.gaugeSpectrum x.mW x.mZ := by
  rw [gaugeMatrix_one (getSMConstants x).g (getSMConstants x).gs _ D _
    (fun a b i j => (CxSM.C77_cxsm_gauge_symmetric _ _ a b i j).1) _ _ _ _
    (fun W => CxSM.C77_cxsm_gauge _ _ W _)]
  rw [← neutral_spectrum x hG hZ _ rfl]
  congr 2 <;> simp [CxSM.vevTree]

/-- `vh` is an input of the model with a complex singlet.  With any other value the W boson has not
its mass: its squared mass is `m_W² vh² / v²`. -/
theorem C79_cxsm_gauge_fails (x : Numbers) (hG : 0 < x.GF) (hZ : x.mW ^ 2 ≤ x.mZ ^ 2) (hW : x.mW ≠ 0)
    (vh vs va : ℝ) (hv : vh ^ 2 ≠ (getSMConstants x).vev0 ^ 2) (D : Matrix (Fin 4) (Fin 4) ℝ) :
    gaugeMatrix (CxSM.gauge (getSMConstants x).g (getSMConstants x).gs) D 0 (CxSM.vevTree vh vs va) 0 0 =
        x.mW ^ 2 * (vh ^ 2 / (getSMConstants x).vev0 ^ 2) ∧
      gaugeMatrix (CxSM.gauge (getSMConstants x).g (getSMConstants x).gs) D 0
        (CxSM.vevTree vh vs va) 0 0 ≠ x.mW ^ 2 := by
  obtain ⟨h0, _, h1, h2⟩ := C79_constants x hG hZ
  rw [gaugeMatrix_one (getSMConstants x).g (getSMConstants x).gs _ D _
    (fun a b i j => (CxSM.C77_cxsm_gauge_symmetric _ _ a b i j).1) _ _ _ _
    (fun W => CxSM.C77_cxsm_gauge _ _ W _)]
  have e : pauliGauge (getSMConstants x).g (getSMConstants x).gs
      (CxSM.vevTree vh vs va 0 ^ 2 + CxSM.vevTree vh vs va 1 ^ 2 + CxSM.vevTree vh vs va 3 ^ 2 +
        CxSM.vevTree vh vs va 2 ^ 2)
      (2 * (CxSM.vevTree vh vs va 0 * CxSM.vevTree vh vs va 3 +
        CxSM.vevTree vh vs va 1 * CxSM.vevTree vh vs va 2))
      (2 * (CxSM.vevTree vh vs va 0 * CxSM.vevTree vh vs va 2 -
        CxSM.vevTree vh vs va 1 * CxSM.vevTree vh vs va 3))
      (CxSM.vevTree vh vs va 0 ^ 2 + CxSM.vevTree vh vs va 1 ^ 2 - CxSM.vevTree vh vs va 3 ^ 2 -
        CxSM.vevTree vh vs va 2 ^ 2) 0 0 = x.mW ^ 2 * (vh ^ 2 / (getSMConstants x).vev0 ^ 2) := by
    rw [← h1]
    simp [pauliGauge, CxSM.vevTree]
    field_simp
    ring
  rw [e]
  refine ⟨rfl, fun h => hv ?_⟩
  have h3 : vh ^ 2 / (getSMConstants x).vev0 ^ 2 = 1 := by
    have := pow_ne_zero 2 hW
    field_simp at h ⊢
    linear_combination h
  rw [div_eq_one_iff_eq (by positivity)] at h3
  exact h3

/-- In the vacuum of CP in the Dark. -/
theorem C79_cpinthedark_gauge (x : Numbers) (hG : 0 < x.GF) (hZ : x.mW ^ 2 ≤ x.mZ ^ 2)
    (D : Matrix (Fin 4) (Fin 4) ℝ) :
    (gaugeMatrix (CPintheDark.gauge (getSMConstants x).g (getSMConstants x).gs) D 0
      (CPintheDark.vevTree (getSMConstants x).vev0)).charpoly =
        Yukawa.Spec.gaugeSpectrum x.mW x.mZ := by
  rw [gaugeMatrix_two (getSMConstants x).g (getSMConstants x).gs _ D _
    (fun a b i j => (CPintheDark.C77_cpinthedark_gauge_symmetric _ _ a b i j).1) _ _ _ _ _ _ _ _
    (fun W => CPintheDark.C77_cpinthedark_gauge _ _ W _)]
  rw [← neutral_spectrum x hG hZ _ rfl]
  congr 2 <;> simp [CPintheDark.vevTree]


theorem r2hdm_unit (t : ℝ) : R2HDM.cosBeta t ^ 2 + R2HDM.sinBeta t ^ 2 = 1 := by
  have h0 : 0 < 1 + t * t := by nlinarith [mul_self_nonneg t]
  have hc : 0 ≤ R2HDM.cosBetaSquared t := by unfold R2HDM.cosBetaSquared; positivity
  have hs : 0 ≤ R2HDM.sinBetaSquared t := by
    unfold R2HDM.sinBetaSquared; exact mul_nonneg (mul_self_nonneg t) hc
  have h1 : R2HDM.sinBeta t ^ 2 = R2HDM.sinBetaSquared t := by
    unfold R2HDM.sinBeta
    split_ifs
    · rw [mul_pow, Real.sq_sqrt hs]; ring
    · exact Real.sq_sqrt hs
  rw [h1, R2HDM.cosBeta, Real.sq_sqrt hc, R2HDM.sinBetaSquared, R2HDM.cosBetaSquared]
  field_simp

theorem r2hdm_cos (t : ℝ) : R2HDM.cosBeta t ≠ 0 := by
  have h0 : 0 < 1 + t * t := by nlinarith [mul_self_nonneg t]
  unfold R2HDM.cosBeta R2HDM.cosBetaSquared
  positivity

theorem r2hdm_sin (t : ℝ) (ht : t ≠ 0) : R2HDM.sinBeta t ≠ 0 := by
  intro h
  have h0 : 0 < 1 + t * t := by nlinarith [mul_self_nonneg t]
  have h1 := r2hdm_unit t
  have hc : 0 ≤ R2HDM.cosBetaSquared t := by unfold R2HDM.cosBetaSquared; positivity
  rw [h, R2HDM.cosBeta, Real.sq_sqrt hc, R2HDM.cosBetaSquared] at h1
  field_simp at h1
  have : t * t = 0 := by linarith
  exact ht (mul_self_eq_zero.1 this)

/-- In the vacuum of the R2HDM, for every `tan β`. -/
theorem C79_r2hdm_gauge (x : Numbers) (hG : 0 < x.GF) (hZ : x.mW ^ 2 ≤ x.mZ ^ 2) (t : ℝ)
    (D : Matrix (Fin 4) (Fin 4) ℝ) :
    (gaugeMatrix (R2HDM.gauge (getSMConstants x).g (getSMConstants x).gs) D 0
      (R2HDM.vevTree ((getSMConstants x).vev0 * R2HDM.cosBeta t) ((getSMConstants x).vev0 * R2HDM.sinBeta t))).charpoly =
        Yukawa.Spec.gaugeSpectrum x.mW x.mZ := by
  rw [gaugeMatrix_two (getSMConstants x).g (getSMConstants x).gs _ D _
    (fun a b i j => (R2HDM.C77_r2hdm_gauge_symmetric _ _ a b i j).1) _ _ _ _ _ _ _ _
    (fun W => R2HDM.C77_r2hdm_gauge _ _ W _)]
  have hu := r2hdm_unit t
  rw [← neutral_spectrum x hG hZ _ rfl]
  congr 2 <;> simp [R2HDM.vevTree] <;>
    first
      | linear_combination (getSMConstants x).vev0 ^ 2 * hu
      | linear_combination -(getSMConstants x).vev0 ^ 2 * hu

theorem c2hdm_unit (t : ℝ) : C2HDM.cosBeta t ^ 2 + C2HDM.sinBeta t ^ 2 = 1 := by
  have h0 : 0 < 1 + t * t := by nlinarith [mul_self_nonneg t]
  have hc : 0 ≤ C2HDM.cosBetaSquared t := by unfold C2HDM.cosBetaSquared; positivity
  have hs : 0 ≤ C2HDM.sinBetaSquared t := by
    unfold C2HDM.sinBetaSquared; exact mul_nonneg (mul_self_nonneg t) hc
  have h1 : C2HDM.sinBeta t ^ 2 = C2HDM.sinBetaSquared t := by
    unfold C2HDM.sinBeta
    exact Real.sq_sqrt hs
  rw [h1, C2HDM.cosBeta, Real.sq_sqrt hc, C2HDM.sinBetaSquared, C2HDM.cosBetaSquared]
  field_simp

theorem c2hdm_cos (t : ℝ) : C2HDM.cosBeta t ≠ 0 := by
  have h0 : 0 < 1 + t * t := by nlinarith [mul_self_nonneg t]
  unfold C2HDM.cosBeta C2HDM.cosBetaSquared
  positivity

theorem c2hdm_sin (t : ℝ) (ht : t ≠ 0) : C2HDM.sinBeta t ≠ 0 := by
  intro h
  have h0 : 0 < 1 + t * t := by nlinarith [mul_self_nonneg t]
  have h1 := c2hdm_unit t
  have hc : 0 ≤ C2HDM.cosBetaSquared t := by unfold C2HDM.cosBetaSquared; positivity
  rw [h, C2HDM.cosBeta, Real.sq_sqrt hc, C2HDM.cosBetaSquared] at h1
  field_simp at h1
  have : t * t = 0 := by linarith
  exact ht (mul_self_eq_zero.1 this)

/-- In the vacuum of the C2HDM, for every `tan β`. -/
theorem C79_c2hdm_gauge (x : Numbers) (hG : 0 < x.GF) (hZ : x.mW ^ 2 ≤ x.mZ ^ 2) (t : ℝ)
    (D : Matrix (Fin 4) (Fin 4) ℝ) :
    (gaugeMatrix (C2HDM.gauge (getSMConstants x).g (getSMConstants x).gs) D 0
      (C2HDM.vevTree ((getSMConstants x).vev0 * C2HDM.cosBeta t) ((getSMConstants x).vev0 * C2HDM.sinBeta t))).charpoly =
        Yukawa.Spec.gaugeSpectrum x.mW x.mZ := by
  rw [gaugeMatrix_two (getSMConstants x).g (getSMConstants x).gs _ D _
    (fun a b i j => (C2HDM.C77_c2hdm_gauge_symmetric _ _ a b i j).1) _ _ _ _ _ _ _ _
    (fun W => C2HDM.C77_c2hdm_gauge _ _ W _)]
  have hu := c2hdm_unit t
  rw [← neutral_spectrum x hG hZ _ rfl]
  congr 2 <;> simp [C2HDM.vevTree] <;>
    first
      | linear_combination (getSMConstants x).vev0 ^ 2 * hu
      | linear_combination -(getSMConstants x).vev0 ^ 2 * hu

theorem n2hdm_unit (t : ℝ) : N2HDM.cosBeta t ^ 2 + N2HDM.sinBeta t ^ 2 = 1 := by
  have h0 : 0 < 1 + t * t := by nlinarith [mul_self_nonneg t]
  have hc : 0 ≤ N2HDM.cosBetaSquared t := by unfold N2HDM.cosBetaSquared; positivity
  have hs : 0 ≤ N2HDM.sinBetaSquared t := by
    unfold N2HDM.sinBetaSquared; exact mul_nonneg (mul_self_nonneg t) hc
  have h1 : N2HDM.sinBeta t ^ 2 = N2HDM.sinBetaSquared t := by
    unfold N2HDM.sinBeta
    exact Real.sq_sqrt hs
  rw [h1, N2HDM.cosBeta, Real.sq_sqrt hc, N2HDM.sinBetaSquared, N2HDM.cosBetaSquared]
  field_simp

theorem n2hdm_cos (t : ℝ) : N2HDM.cosBeta t ≠ 0 := by
  have h0 : 0 < 1 + t * t := by nlinarith [mul_self_nonneg t]
  unfold N2HDM.cosBeta N2HDM.cosBetaSquared
  positivity

theorem n2hdm_sin (t : ℝ) (ht : t ≠ 0) : N2HDM.sinBeta t ≠ 0 := by
  intro h
  have h0 : 0 < 1 + t * t := by nlinarith [mul_self_nonneg t]
  have h1 := n2hdm_unit t
  have hc : 0 ≤ N2HDM.cosBetaSquared t := by unfold N2HDM.cosBetaSquared; positivity
  rw [h, N2HDM.cosBeta, Real.sq_sqrt hc, N2HDM.cosBetaSquared] at h1
  field_simp at h1
  have : t * t = 0 := by linarith
  exact ht (mul_self_eq_zero.1 this)

/-- In the vacuum of the N2HDM, for every `tan β`. -/
theorem C79_n2hdm_gauge (x : Numbers) (hG : 0 < x.GF) (hZ : x.mW ^ 2 ≤ x.mZ ^ 2) (t vs : ℝ)
    (D : Matrix (Fin 4) (Fin 4) ℝ) :
    (gaugeMatrix (N2HDM.gauge (getSMConstants x).g (getSMConstants x).gs) D 0
      (N2HDM.vevTree ((getSMConstants x).vev0 * N2HDM.cosBeta t) ((getSMConstants x).vev0 * N2HDM.sinBeta t) vs)).charpoly =
        Yukawa.Spec.gaugeSpectrum x.mW x.mZ := by
  rw [gaugeMatrix_two (getSMConstants x).g (getSMConstants x).gs _ D _
    (fun a b i j => (N2HDM.C77_n2hdm_gauge_symmetric _ _ a b i j).1) _ _ _ _ _ _ _ _
    (fun W => N2HDM.C77_n2hdm_gauge _ _ W _)]
  have hu := n2hdm_unit t
  rw [← neutral_spectrum x hG hZ _ rfl]
  congr 2 <;> simp [N2HDM.vevTree] <;>
    first
      | linear_combination (getSMConstants x).vev0 ^ 2 * hu
      | linear_combination -(getSMConstants x).vev0 ^ 2 * hu

/-! ### The fermions at the vacuum -/

/-- In the vacuum of the standard model the fermions have their masses. -/
theorem C79_sm_fermions (c : Constants) (v : ℝ) (hv : v ≠ 0) :
    squaredMatrix zeroTensor (Yukawa.SM.quarkTensor c v) (SM.vevTree v) =
        Yukawa.Spec.squares (Yukawa.Spec.quarkMasses c.up c.down) ∧
      squaredMatrix zeroTensor (Yukawa.SM.leptonTensor c v) (SM.vevTree v) =
        Yukawa.Spec.squares (Yukawa.Spec.leptonMasses c.charged) := by
  have h : SM.higgs (SM.vevTree v) = ![0, ((v / √2 : ℝ) : ℂ)] := doublet_neutral v
  constructor
  · refine quark_masses _ (fun a b k => (Yukawa.SM.C78_sm_symmetric c v a b k).1) _ c.ckm c.up c.down
      v v hv hv fun ψ => ?_
    rw [Yukawa.SM.C78_sm_quarks, h]
  · refine lepton_masses _ (fun a b k => (Yukawa.SM.C78_sm_symmetric c v a b k).2) _ c.charged v hv
      fun ψ => ?_
    rw [Yukawa.SM.C78_sm_leptons, h]

/-- In the vacuum of the model with a complex singlet. -/
theorem C79_cxsm_fermions (c : Constants) (v vs va : ℝ) (hv : v ≠ 0) :
    squaredMatrix zeroTensor (Yukawa.CxSM.quarkTensor c v) (CxSM.vevTree v vs va) =
        Yukawa.Spec.squares (Yukawa.Spec.quarkMasses c.up c.down) ∧
      squaredMatrix zeroTensor (Yukawa.CxSM.leptonTensor c v) (CxSM.vevTree v vs va) =
        Yukawa.Spec.squares (Yukawa.Spec.leptonMasses c.charged) := by
  have h : CxSM.higgs (CxSM.vevTree v vs va) = ![0, ((v / √2 : ℝ) : ℂ)] := doublet_neutral v
  constructor
  · refine quark_masses _ (fun a b k => (Yukawa.CxSM.C78_cxsm_symmetric c v a b k).1) _ c.ckm c.up
      c.down v v hv hv fun ψ => ?_
    rw [Yukawa.CxSM.C78_cxsm_quarks, h]
  · refine lepton_masses _ (fun a b k => (Yukawa.CxSM.C78_cxsm_symmetric c v a b k).2) _ c.charged v hv
      fun ψ => ?_
    rw [Yukawa.CxSM.C78_cxsm_leptons, h]

/-- In the vacuum of CP in the Dark. -/
theorem C79_cpinthedark_fermions (c : Constants) (v : ℝ) (hv : v ≠ 0) :
    squaredMatrix zeroTensor (Yukawa.CPintheDark.quarkTensor c v) (CPintheDark.vevTree v) =
        Yukawa.Spec.squares (Yukawa.Spec.darkQuarkMasses c.up c.down) ∧
      squaredMatrix zeroTensor (Yukawa.CPintheDark.leptonTensor c v) (CPintheDark.vevTree v) =
        Yukawa.Spec.squares (Yukawa.Spec.leptonMasses c.charged) := by
  have h : CPintheDark.phi1 (CPintheDark.vevTree v) = ![0, ((v / √2 : ℝ) : ℂ)] := doublet_neutral v
  constructor
  · refine darkQuark_masses _ (fun a b k => (Yukawa.CPintheDark.C78_cpinthedark_symmetric c v a b k).1)
      _ c.ckm c.up c.down v v hv hv fun ψ => ?_
    rw [Yukawa.CPintheDark.C78_cpinthedark_quarks, h]
  · refine lepton_masses _ (fun a b k => (Yukawa.CPintheDark.C78_cpinthedark_symmetric c v a b k).2) _
      c.charged v hv fun ψ => ?_
    rw [Yukawa.CPintheDark.C78_cpinthedark_leptons, h]

theorem twoHDM_fermions (c : Constants) (v1 v2 : ℝ) (h1 : v1 ≠ 0) (h2 : v2 ≠ 0) (type : Int)
    (ht : TwoHDM.Documented type) (φ : Fin 8 → ℝ)
    (e1 : TwoDoublets.phi1 φ = ![0, ((v1 / √2 : ℝ) : ℂ)])
    (e2 : TwoDoublets.phi2 φ = ![0, ((v2 / √2 : ℝ) : ℂ)]) :
    squaredMatrix zeroTensor (TwoHDM.quarkTensor c v1 v2 type) φ =
        Yukawa.Spec.squares (Yukawa.Spec.quarkMasses c.up c.down) ∧
      squaredMatrix zeroTensor (TwoHDM.leptonTensor c v1 v2 type) φ =
        Yukawa.Spec.squares (Yukawa.Spec.leptonMasses c.charged) := by
  constructor
  · refine quark_masses _ (fun a b k => (TwoHDM.C78_2hdm_symmetric c v1 v2 type a b k).1) _ c.ckm c.up
      c.down v2 (Yukawa.Spec.downVev type v1 v2) h2
      (by unfold Yukawa.Spec.downVev; split_ifs <;> assumption) fun ψ => ?_
    rw [TwoHDM.C78_2hdm_quarks c v1 v2 type ht, e1, e2]
    unfold Yukawa.Spec.downDoublet Yukawa.Spec.downVev
    split_ifs <;> rfl
  · refine lepton_masses _ (fun a b k => (TwoHDM.C78_2hdm_symmetric c v1 v2 type a b k).2) _ c.charged
      (Yukawa.Spec.leptonVev type v1 v2)
      (by unfold Yukawa.Spec.leptonVev; split_ifs <;> assumption) fun ψ => ?_
    rw [TwoHDM.C78_2hdm_leptons c v1 v2 type ht, e1, e2]
    unfold Yukawa.Spec.leptonDoublet Yukawa.Spec.leptonVev
    split_ifs <;> rfl

/-- In the vacuum of the R2HDM, for the four documented types. -/
theorem C79_r2hdm_fermions (c : Constants) (hv : c.vev0 ≠ 0) (t : ℝ) (h : t ≠ 0) (type : Int)
    (ht : TwoHDM.Documented type) :
    let v1 := c.vev0 * R2HDM.cosBeta t
    let v2 := c.vev0 * R2HDM.sinBeta t
    squaredMatrix zeroTensor (TwoHDM.quarkTensor c v1 v2 type) (R2HDM.vevTree v1 v2) =
        Yukawa.Spec.squares (Yukawa.Spec.quarkMasses c.up c.down) ∧
      squaredMatrix zeroTensor (TwoHDM.leptonTensor c v1 v2 type) (R2HDM.vevTree v1 v2) =
        Yukawa.Spec.squares (Yukawa.Spec.leptonMasses c.charged) :=
  twoHDM_fermions c _ _ (mul_ne_zero hv (r2hdm_cos t)) (mul_ne_zero hv (r2hdm_sin t h)) type ht _
    (doublet_neutral _) (doublet_neutral _)

/-- In the vacuum of the C2HDM, for the four documented types. -/
theorem C79_c2hdm_fermions (c : Constants) (hv : c.vev0 ≠ 0) (t : ℝ) (h : t ≠ 0) (type : Int)
    (ht : TwoHDM.Documented type) :
    let v1 := c.vev0 * C2HDM.cosBeta t
    let v2 := c.vev0 * C2HDM.sinBeta t
    squaredMatrix zeroTensor (TwoHDM.quarkTensor c v1 v2 type) (C2HDM.vevTree v1 v2) =
        Yukawa.Spec.squares (Yukawa.Spec.quarkMasses c.up c.down) ∧
      squaredMatrix zeroTensor (TwoHDM.leptonTensor c v1 v2 type) (C2HDM.vevTree v1 v2) =
        Yukawa.Spec.squares (Yukawa.Spec.leptonMasses c.charged) :=
  twoHDM_fermions c _ _ (mul_ne_zero hv (c2hdm_cos t)) (mul_ne_zero hv (c2hdm_sin t h)) type ht _
    (doublet_neutral _) (doublet_neutral _)

/-- In the vacuum of the N2HDM, for the four documented types. -/
theorem C79_n2hdm_fermions (c : Constants) (hv : c.vev0 ≠ 0) (t vs : ℝ) (h : t ≠ 0) (type : Int)
    (ht : TwoHDM.Documented type) :
    let v1 := c.vev0 * N2HDM.cosBeta t
    let v2 := c.vev0 * N2HDM.sinBeta t
    squaredMatrix zeroTensor (TwoHDM.quarkTensorN c v1 v2 type) (N2HDM.vevTree v1 v2 vs) =
        Yukawa.Spec.squares (Yukawa.Spec.quarkMasses c.up c.down) ∧
      squaredMatrix zeroTensor (TwoHDM.leptonTensorN c v1 v2 type) (N2HDM.vevTree v1 v2 vs) =
        Yukawa.Spec.squares (Yukawa.Spec.leptonMasses c.charged) := by
  intro v1 v2
  have h1 : v1 ≠ 0 := mul_ne_zero hv (n2hdm_cos t)
  have h2 : v2 ≠ 0 := mul_ne_zero hv (n2hdm_sin t h)
  have e1 : N2HDM.phi1 (N2HDM.vevTree v1 v2 vs) = ![0, ((v1 / √2 : ℝ) : ℂ)] := doublet_neutral _
  have e2 : N2HDM.phi2 (N2HDM.vevTree v1 v2 vs) = ![0, ((v2 / √2 : ℝ) : ℂ)] := doublet_neutral _
  constructor
  · refine quark_masses _ (fun a b k => (TwoHDM.C78_n2hdm_symmetric c v1 v2 type a b k).1) _ c.ckm c.up
      c.down v2 (Yukawa.Spec.downVev type v1 v2) h2
      (by unfold Yukawa.Spec.downVev; split_ifs <;> assumption) fun ψ => ?_
    rw [TwoHDM.C78_n2hdm_quarks c v1 v2 type ht, e1, e2]
    unfold Yukawa.Spec.downDoublet Yukawa.Spec.downVev
    split_ifs <;> rfl
  · refine lepton_masses _ (fun a b k => (TwoHDM.C78_n2hdm_symmetric c v1 v2 type a b k).2) _ c.charged
      (Yukawa.Spec.leptonVev type v1 v2)
      (by unfold Yukawa.Spec.leptonVev; split_ifs <;> assumption) fun ψ => ?_
    rw [TwoHDM.C78_n2hdm_leptons c v1 v2 type ht, e1, e2]
    unfold Yukawa.Spec.leptonDoublet Yukawa.Spec.leptonVev
    split_ifs <;> rfl

/-- The hypotheses are met. -/
example : TwoHDM.Documented 2 ∧ (getSMConstants numbers).vev0 ≠ 0 :=
  ⟨.inr (.inl rfl), (C79_constants numbers (by unfold numbers; norm_num)
    (by unfold numbers; norm_num)).1.ne'⟩

/-- The type is not checked when the parameters are read.  For every other number the tau lepton
couples to `Φ₁` with the coupling of `Φ₂` and does not have its mass. -/
theorem C79_2hdm_type_fails (c : Constants) (v1 v2 : ℝ) (h2 : v2 ≠ 0) (h12 : v1 ^ 2 ≠ v2 ^ 2)
    (hm : c.mTau ≠ 0) (type : Int) (ht : ¬ TwoHDM.Documented type) :
    squaredMatrix zeroTensor (TwoHDM.leptonTensor c v1 v2 type) (R2HDM.vevTree v1 v2) =
        Yukawa.Spec.squares (Yukawa.Spec.leptonMasses fun i => c.charged i * v1 / v2) ∧
      squaredMatrix zeroTensor (TwoHDM.leptonTensor c v1 v2 type) (R2HDM.vevTree v1 v2) ≠
        Yukawa.Spec.squares (Yukawa.Spec.leptonMasses c.charged) := by
  have n1 : type ≠ 1 := fun h => ht (.inl h)
  have n2 : type ≠ 2 := fun h => ht (.inr (.inl h))
  have n3 : type ≠ 3 := fun h => ht (.inr (.inr (.inl h)))
  have n4 : type ≠ 4 := fun h => ht (.inr (.inr (.inr h)))
  have e : TwoHDM.leptonTensor c v1 v2 type = TwoHDM.leptonTensor c v2 v2 2 := by
    funext q
    simp [TwoHDM.leptonTensor, TwoHDM.vevLepton, n1, n2, n3, n4]
  have h1 : TwoDoublets.phi1 (R2HDM.vevTree v1 v2) = ![0, ((v1 / √2 : ℝ) : ℂ)] := doublet_neutral _
  have hs : squaredMatrix zeroTensor (TwoHDM.leptonTensor c v1 v2 type) (R2HDM.vevTree v1 v2) =
      Yukawa.Spec.squares (Yukawa.Spec.leptonMasses fun i => c.charged i * v1 / v2) := by
    rw [e, lepton_squared _ (fun a b k => (TwoHDM.C78_2hdm_symmetric c v2 v2 2 a b k).2) _
      (Yukawa.Spec.coupling v2 c.charged) ![0, ((v1 / √2 : ℝ) : ℂ)] (fun ψ => ?_), lepton_neutral,
      submatrix_diagonal_equiv]
    · unfold Yukawa.Spec.squares
      congr 1
      ext i
      have hm' : ∀ i, Yukawa.Spec.coupling v2 c.charged i * (v1 / √2) = c.charged i * v1 / v2 := by
        intro i
        have : √(2 : ℝ) ≠ 0 := by positivity
        unfold Yukawa.Spec.coupling
        field_simp
      simp only [hm']
      fin_cases i <;> simp [leptonEquiv, Yukawa.Spec.leptonMasses]
    · rw [TwoHDM.C78_2hdm_leptons c v2 v2 2 (.inr (.inl rfl))]
      simp [Yukawa.Spec.leptonDoublet, Yukawa.Spec.leptonVev, h1]
  refine ⟨hs, fun h => h12 ?_⟩
  rw [hs] at h
  have h4 := congrFun (congrFun h 4) 4
  simp only [Yukawa.Spec.squares, diagonal_apply_eq, Yukawa.Spec.leptonMasses, Constants.charged,
    cons_val] at h4
  have h5 : (c.mTau * v1 / v2) ^ 2 = c.mTau ^ 2 := by exact_mod_cast h4
  field_simp at h5
  exact h5

/-- The hypotheses are met by the type `5`. -/
example : ¬ TwoHDM.Documented 5 ∧ (1 : ℝ) ^ 2 ≠ 2 ^ 2 := by
  refine ⟨?_, by norm_num⟩
  unfold TwoHDM.Documented
  decide

end Verif.Spectrum
