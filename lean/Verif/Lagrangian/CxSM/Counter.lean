import Verif.Lagrangian.CxSM.Props

/-!
# Counterterms and gauge couplings of the standard model with a complex singlet
-/

set_option linter.unusedSimpArgs false
set_option linter.unusedVariables false

namespace Verif.Lagrangian.CxSM

open Verif.Potential
open Verif.Potential.Spec (polynomial)
open Verif.Lagrangian.Spec

/-! ### Counterterms -/

/-- The first-order change of the fields when the doublet is multiplied by `exp(i θ σ_a)`
(`a = 0, 1, 2`) or by `exp(i θ)` (`a = 3`); the singlet does not change. -/
noncomputable def generator (a : Fin 4) : (Fin 6 → ℝ) →L[ℝ] (Fin 6 → ℝ) :=
  LinearMap.toContinuousLinearMap
    { toFun := fun φ => ![![-φ 2, φ 3, φ 0, -φ 1, 0, 0], ![φ 3, φ 2, -φ 1, -φ 0, 0, 0],
        ![-φ 1, φ 0, -φ 3, φ 2, 0, 0], ![-φ 1, φ 0, φ 3, -φ 2, 0, 0]] a
      map_add' := by intro x y; funext k; fin_cases a <;> fin_cases k <;> simp <;> ring
      map_smul' := by intro x y; funext k; fin_cases a <;> fin_cases k <;> simp }

theorem generator_apply (a : Fin 4) (φ : Fin 6 → ℝ) :
    generator a φ = ![![-φ 2, φ 3, φ 0, -φ 1, 0, 0], ![φ 3, φ 2, -φ 1, -φ 0, 0, 0],
        ![-φ 1, φ 0, -φ 3, φ 2, 0, 0], ![-φ 1, φ 0, φ 3, -φ 2, 0, 0]] a := rfl

/-- The transformations multiply the doublet by `cos θ + i sin θ σ_a` and `cos θ + i sin θ` and keep
the singlet. -/
theorem higgs_rotate (a : Fin 4) (θ : ℝ) (φ : Fin 6 → ℝ) :
    higgs (rotate (generator a) θ φ) = gaugeRotation a θ (higgs φ) ∧
      singlet (rotate (generator a) θ φ) = singlet φ := by
  constructor
  · rw [higgs, higgs, ← gaugeRotation_doublet]
    simp only [rotate_apply, generator_apply]
    fin_cases a <;> simp [turn] <;> congr 1 <;> ring
  · rw [singlet, singlet]
    simp only [rotate_apply, generator_apply]
    fin_cases a <;> simp

/-- Invariance under `SU(2) × U(1)`. -/
def GaugeInvariant (W : (Fin 6 → ℝ) → ℝ) : Prop :=
  ∀ a θ φ, W (rotate (generator a) θ φ) = W φ

theorem relations {W : (Fin 6 → ℝ) → ℝ} (hW : GaugeInvariant W) {h s a : ℝ} (hh : h ≠ 0)
    {N : Fin 6 → ℝ} {H : Fin 6 → Fin 6 → ℝ} (hE : Expansion W (vevTree h s a) N H) :
    N = ![0, 0, 0, H 2 2 * h, N 4, N 5] ∧
      H = shape (H 2 2) (H 3 3) (H 3 4) (H 3 5) (H 4 4) (H 4 5) (H 5 5) := by
  have hg := fun k => hE.goldstone (rotate_generates (generator k)) (hW k)
  have e0 : N 0 = 0 := by
    have := (hg 1).1
    simp [Fin.sum_univ_six, generator_apply, vevTree] at this
    exact this.resolve_right hh
  have e1 : N 1 = 0 := by
    have := (hg 0).1
    simp [Fin.sum_univ_six, generator_apply, vevTree] at this
    exact this.resolve_right hh
  have e2 : N 2 = 0 := by
    have := (hg 2).1
    simp [Fin.sum_univ_six, generator_apply, vevTree] at this
    exact this.resolve_right hh
  have h0 := (hg 0).2
  have h1 := (hg 1).2
  have h2 := (hg 2).2
  simp only [Fin.forall_fin_succ, Fin.sum_univ_six, generator_apply, vevTree] at h0 h1 h2
  simp [e0, e1, e2, hh] at h0 h1 h2
  obtain ⟨a0, a1, a2, a3, a4, a5⟩ := h0
  obtain ⟨b0, b1, b2, b3, b4, b5⟩ := h1
  obtain ⟨c0, c1, c2, c3, c4, c5⟩ := h2
  have d0 : H 0 0 = H 2 2 := mul_right_cancel₀ hh (by linarith)
  have d1 : H 1 1 = H 2 2 := mul_right_cancel₀ hh (by linarith)
  constructor
  · funext i
    fin_cases i <;> simp [e0, e1, e2]
    linarith
  · funext i j
    fin_cases i <;> fin_cases j <;> first
      | rfl
      | assumption
      | exact (hE.symm _ _).trans (by assumption)
      | exact hE.symm _ _

/-- The fifteen numbers of the result. -/
def CT.entries (c : CT) : List ℝ :=
  [c.dmsq, c.dlambda, c.ddelta2, c.db2, c.dd2, c.dReb1, c.dImb1, c.dRea1, c.dIma1, c.dT1, c.dT2,
    c.dT3, c.dT4, c.dT5, c.dT6]

theorem cut_eq {x : ℝ} (h : x = 0 ∨ 1 / 10 ^ 5 < |x|) : cut x = x := by
  unfold cut
  rcases h with h | h
  · simp [h]
  · rw [if_neg (not_le.2 h)]

theorem cutCT_eq {c : CT} (h : ∀ x ∈ c.entries, x = 0 ∨ 1 / 10 ^ 5 < |x|) : cutCT c = c := by
  simp only [CT.entries, List.forall_mem_cons] at h
  obtain ⟨h0, h1, h2, h3, h4, h5, h6, h7, h8, h9, h10, h11, h12, h13, h14, _⟩ := h
  unfold cutCT
  simp only [cut_eq, h0, h1, h2, h3, h4, h5, h6, h7, h8, h9, h10, h11, h12, h13, h14]

theorem formulas_cancel (h s a i1 g n4 n5 hh hs ha ss sa aa : ℝ) (h0 : h ≠ 0)
    (hl : hs * a = ha * s) (hz : s = 0 → a = 0 → hs = 0 ∧ ha = 0) (c : CT)
    (hc : c = formulas h s a i1 ![0, 0, 0, g * h, n4, n5] (shape g hh hs ha ss sa aa)) :
    (∀ i, nablaVCT (counter c) (vevTree h s a) i = -(![0, 0, 0, g * h, n4, n5] : Fin 6 → ℝ) i) ∧
    ∀ i j, hessianCT (counter c) (vevTree h s a) i j = -shape g hh hs ha ss sa aa i j := by
  have h2 : (√2 : ℝ) ^ 2 = 2 := Real.sq_sqrt (by norm_num)
  simp only [nablaVCT, counter_eq, grad_at, hess_at, ← shape_neg]
  by_cases za : a = 0 <;> by_cases zs : s = 0
  · obtain ⟨rfl, rfl⟩ := hz zs za
    subst za zs
    have e : c = _ := hc
    simp [formulas, shape] at e
    subst e
    constructor
    · intro i; fin_cases i <;> simp [look, ctL1, List.lookup, shift] <;> field_simp <;> (try simp only [h2]) <;> ring
    · intro i j; simp only [shift]; congr 1 <;> field_simp <;> ring
  · obtain rfl : ha = 0 := by
      subst za; simpa [zs] using hl.symm
    subst za
    have e : c = _ := hc
    simp [formulas, shape, zs] at e
    subst e
    constructor
    · intro i; fin_cases i <;> simp [look, ctL1, List.lookup, shift] <;> field_simp <;> (try simp only [h2]) <;> ring
    · intro i j; simp only [shift]; congr 1 <;> field_simp <;> ring
  · obtain rfl : hs = 0 := by
      subst zs; simpa [za] using hl
    subst zs
    have e : c = _ := hc
    simp [formulas, shape, za] at e
    subst e
    constructor
    · intro i; fin_cases i <;> simp [look, ctL1, List.lookup, shift] <;> field_simp <;> (try simp only [h2]) <;> ring
    · intro i j; simp only [shift]; congr 1 <;> field_simp <;> ring
  · obtain rfl : hs = ha * s / a := by field_simp; exact hl
    have e : c = _ := hc
    by_cases z1 : i1 = 0
    · simp [formulas, shape, za, zs, z1] at e
      subst e
      have hp : a ^ 2 + s ^ 2 ≠ 0 := by positivity
      have hp' : a * a + s * s ≠ 0 := by rw [← pow_two, ← pow_two]; exact hp
      constructor
      · intro i; fin_cases i <;> simp [look, ctL1, List.lookup, shift] <;> field_simp <;> (try simp only [h2]) <;> ring
      · intro i j; simp only [shift]; congr 1 <;> field_simp <;> ring
    · simp [formulas, shape, za, zs, z1] at e
      subst e
      constructor
      · intro i; fin_cases i <;> simp [look, ctL1, List.lookup, shift] <;> field_simp <;> (try simp only [h2]) <;> ring
      · intro i j; simp only [shift]; congr 1 <;> field_simp <;> ring

/-- The counterterms of `calc_CT` cancel the first and second derivatives of the Coleman-Weinberg
potential `W` at the vacuum, for every gauge invariant function `W`, provided that no number falls
below the threshold of `calc_CT` without being zero and that the mixing of the doublet with the
singlet has the direction of the vacuum of the singlet. -/
theorem C76_cxsm_cancel_partial (W : (Fin 6 → ℝ) → ℝ) (hW : GaugeInvariant W)
    (vh vs va ima1 : ℝ) (hv : vh ≠ 0) (N : Fin 6 → ℝ) (H : Fin 6 → Fin 6 → ℝ)
    (hE : Expansion W (vevTree vh vs va) N H)
    (hN : ∀ i, N i = 0 ∨ 1 / 10 ^ 5 < |N i|) (hH : ∀ i j, H i j = 0 ∨ 1 / 10 ^ 5 < |H i j|)
    (hF : ∀ x ∈ (formulas vh vs va ima1 N H).entries, x = 0 ∨ 1 / 10 ^ 5 < |x|)
    (hmix : H 3 4 * va = H 3 5 * vs) (hzero : vs = 0 → va = 0 → H 3 4 = 0 ∧ H 3 5 = 0) :
    (∀ i, nablaVCT (counter (calcCT vh vs va ima1 N H)) (vevTree vh vs va) i = -N i) ∧
    (∀ i j, hessianCT (counter (calcCT vh vs va ima1 N H)) (vevTree vh vs va) i j = -H i j) ∧
    (calcCT vh vs va ima1 N H).dT1 = 0 ∧ (calcCT vh vs va ima1 N H).dT2 = 0 ∧
    (calcCT vh vs va ima1 N H).dT3 = 0 ∧ (calcCT vh vs va ima1 N H).dT4 = 0 ∧
    (calcCT vh vs va ima1 N H).dT5 = 0 ∧ (calcCT vh vs va ima1 N H).dT6 = 0 := by
  have hc : calcCT vh vs va ima1 N H = formulas vh vs va ima1 N H := by
    unfold calcCT
    simp only [cut_eq (hN _), cut_eq (hH _ _)]
    exact cutCT_eq hF
  obtain ⟨r1, r2⟩ := relations hW hv hE
  obtain ⟨k1, k2⟩ := formulas_cancel vh vs va ima1 (H 2 2) (N 4) (N 5) (H 3 3) (H 3 4) (H 3 5)
    (H 4 4) (H 4 5) (H 5 5) hv hmix hzero (formulas vh vs va ima1 N H) (by rw [← r1, ← r2])
  have e0 : N 0 = 0 := congrFun r1 0
  have e1 : N 1 = 0 := congrFun r1 1
  have e2 : N 2 = 0 := congrFun r1 2
  have e3 : N 3 = H 2 2 * vh := congrFun r1 3
  rw [hc]
  refine ⟨fun i => ?_, fun i j => ?_, ?_⟩
  · rw [k1, ← r1]
  · rw [k2, ← r2]
  · unfold formulas
    dsimp only
    split_ifs <;> simp [e0, e1, e2, e3]

theorem square_invariant : GaugeInvariant (fun φ => (∑ k, φ k ^ 2) / 2) := by
  intro a θ φ
  have h := Real.sin_sq_add_cos_sq θ
  simp only [Fin.sum_univ_six, rotate_apply, generator_apply]
  fin_cases a <;> simp <;>
    linear_combination (φ 0 ^ 2 + φ 1 ^ 2 + φ 2 ^ 2 + φ 3 ^ 2) * h

/-- The hypotheses are met by an invariant function with a non-trivial gradient at a vacuum with all
three values. -/
example : ∃ (W : (Fin 6 → ℝ) → ℝ) (N : Fin 6 → ℝ) (H : Fin 6 → Fin 6 → ℝ), GaugeInvariant W ∧
    Expansion W (vevTree 246 10 20) N H ∧ N 4 ≠ 0 ∧ (∀ i, N i = 0 ∨ 1 / 10 ^ 5 < |N i|) ∧
    (∀ i j, H i j = 0 ∨ 1 / 10 ^ 5 < |H i j|) ∧
    (∀ x ∈ (formulas 246 10 20 1 N H).entries, x = 0 ∨ 1 / 10 ^ 5 < |x|) ∧
    H 3 4 * 20 = H 3 5 * 10 := by
  refine ⟨_, _, _, square_invariant, expansion_square _, by simp [vevTree], fun i => ?_,
    fun i j => ?_, ?_, by simp⟩
  · fin_cases i <;> simp [vevTree] <;> norm_num
  · by_cases h : i = j <;> simp [h]
    norm_num
  · simp [CT.entries, formulas, vevTree]
    norm_num

/-- Without the condition on the mixing the cancellation fails: if only the imaginary part of the
singlet has a vacuum expectation value, no counterterm mixes the doublet with the real part. -/
theorem C76_cxsm_mixing_fails : ∃ (W : (Fin 6 → ℝ) → ℝ) (N : Fin 6 → ℝ) (H : Fin 6 → Fin 6 → ℝ),
    GaugeInvariant W ∧ Expansion W (vevTree 246 0 20) N H ∧ ∀ ima1,
      hessianCT (counter (calcCT 246 0 20 ima1 N H)) (vevTree 246 0 20) 3 4 ≠ -H 3 4 := by
  refine ⟨_, _, _, ?_, (expansion_square _).mul (expansion_proj _ 4), fun ima1 => ?_⟩
  · intro a θ φ
    have h1 := square_invariant a θ φ
    have h2 : rotate (generator a) θ φ 4 = φ 4 := by
      simp only [rotate_apply, generator_apply]
      fin_cases a <;> simp
    simp only at h1 ⊢
    rw [h1, h2]
  · rw [counter_eq, hess_at]
    simp [shape, vevTree]

/-- The threshold also removes counterterms of the dimensionless couplings whose effect on the masses
is far above it: for `W = (Σ φ² / 2)² / 10⁶` the gradient and the Hesse matrix have entries of order
one, but the counterterm of `lambda` is dropped and neither is cancelled. -/
theorem C76_cxsm_threshold_fails : ∃ (W : (Fin 6 → ℝ) → ℝ) (N : Fin 6 → ℝ)
    (H : Fin 6 → Fin 6 → ℝ), GaugeInvariant W ∧ Expansion W (vevTree 246 0 0) N H ∧
    1 / 10 < H 3 3 ∧ 10 < N 3 ∧
    hessianCT (counter (calcCT 246 0 0 0 N H)) (vevTree 246 0 0) 3 3 = 0 ∧
    nablaVCT (counter (calcCT 246 0 0 0 N H)) (vevTree 246 0 0) 3 = 0 := by
  have hs : (∑ k, (vevTree 246 0 0) k ^ 2) / 2 = (246 ^ 2 / 2 : ℝ) := by
    simp [Fin.sum_univ_six, vevTree]
  have hE := (((expansion_square (vevTree 246 0 0)).mul (expansion_square (vevTree 246 0 0))).smul
    (1 / 10 ^ 6)).congr rfl (N' := ![0, 0, 0, 246 ^ 3 / 10 ^ 6, 0, 0])
    (H' := shape (246 ^ 2 / 10 ^ 6) (3 * 246 ^ 2 / 10 ^ 6) 0 0 (246 ^ 2 / 10 ^ 6) 0
      (246 ^ 2 / 10 ^ 6))
    (by rw [hs]; intro i; fin_cases i <;> simp [vevTree] <;> norm_num)
    (by rw [hs]; intro i j; fin_cases i <;> fin_cases j <;> simp [vevTree, shape] <;> norm_num)
  refine ⟨_, _, _, ?_, hE, ?_⟩
  · intro a θ φ
    have h1 := square_invariant a θ φ
    simp only at h1 ⊢
    rw [h1]
  · have c1 : cut (246 ^ 2 / 10 ^ 6) = 246 ^ 2 / 10 ^ 6 := cut_eq (Or.inr (by norm_num [abs_of_pos]))
    have c2 : cut (3 * 246 ^ 2 / 10 ^ 6) = 3 * 246 ^ 2 / 10 ^ 6 :=
      cut_eq (Or.inr (by norm_num [abs_of_pos]))
    have c3 : cut (246 ^ 3 / 10 ^ 6) = 246 ^ 3 / 10 ^ 6 := cut_eq (Or.inr (by norm_num [abs_of_pos]))
    have c0 : cut 0 = 0 := cut_eq (Or.inl rfl)
    have c4 : cut (-(4 / 10 ^ 6)) = 0 := by rw [cut, if_pos]; norm_num [abs_of_pos]
    have em : (calcCT 246 0 0 0 ![0, 0, 0, 246 ^ 3 / 10 ^ 6, 0, 0] (shape (246 ^ 2 / 10 ^ 6)
        (3 * 246 ^ 2 / 10 ^ 6) 0 0 (246 ^ 2 / 10 ^ 6) 0 (246 ^ 2 / 10 ^ 6))).dmsq = 0 := by
      simp only [calcCT, cutCT, formulas, ne_eq, not_true_eq_false, false_and, if_false]
      change cut (-3 * cut (246 ^ 2 / 10 ^ 6) + cut (3 * 246 ^ 2 / 10 ^ 6)) = 0
      rw [c1, c2, ← c0]; congr 1; norm_num
    have el : (calcCT 246 0 0 0 ![0, 0, 0, 246 ^ 3 / 10 ^ 6, 0, 0] (shape (246 ^ 2 / 10 ^ 6)
        (3 * 246 ^ 2 / 10 ^ 6) 0 0 (246 ^ 2 / 10 ^ 6) 0 (246 ^ 2 / 10 ^ 6))).dlambda = 0 := by
      simp only [calcCT, cutCT, formulas, ne_eq, not_true_eq_false, false_and, if_false]
      change cut ((2 * cut (246 ^ 2 / 10 ^ 6) - 2 * cut (3 * 246 ^ 2 / 10 ^ 6)) * (246 ^ 2)⁻¹) = 0
      rw [c1, c2, ← c4]; congr 1; norm_num
    have et : (calcCT 246 0 0 0 ![0, 0, 0, 246 ^ 3 / 10 ^ 6, 0, 0] (shape (246 ^ 2 / 10 ^ 6)
        (3 * 246 ^ 2 / 10 ^ 6) 0 0 (246 ^ 2 / 10 ^ 6) 0 (246 ^ 2 / 10 ^ 6))).dT4 = 0 := by
      simp only [calcCT, cutCT, formulas, ne_eq, not_true_eq_false, false_and, if_false]
      change cut (cut (246 ^ 2 / 10 ^ 6) * 246 - cut (246 ^ 3 / 10 ^ 6)) = 0
      rw [c1, c3, ← c0]; congr 1; norm_num
    refine ⟨by simp [shape]; norm_num, by simp; norm_num, ?_, ?_⟩
    · rw [counter_eq, hess_at]
      simp only [shift, em, el]
      simp [shape]
    · rw [nablaVCT, counter_eq, grad_at]
      simp [look, ctL1, List.lookup, shift, em, el, et]

/-! ### Gauge couplings -/

/-- For all values of the scalar and gauge fields `1/4 G2H2[a][b][i][j] A_a A_b φ_i φ_j` is the
documented `(D H)† (D H)`. -/
theorem C77_cxsm_gauge (g gs : ℝ) (W : Fin 4 → ℝ) (φ : Fin 6 → ℝ) :
    ((1 / 4 * ∑ a : Fin 4, ∑ b : Fin 4, ∑ i : Fin 6, ∑ j : Fin 6,
        gauge g gs [(a : Nat), (b : Nat), (i : Nat), (j : Nat)] *
          (W a * (W b * (φ i * φ j))) : ℝ) : ℂ) =
      dagger (covariant g gs W (higgs φ)) (covariant g gs W (higgs φ)) := by
  rw [higgs, covariant_doublet, gauge, contract_look _ (g2h2_distinct g gs)]
  congr 1
  simp [g2h2, ext]
  ring

/-- The tensor does not depend on the order of the two gauge indices and of the two field
indices. -/
theorem C77_cxsm_gauge_symmetric (g gs : ℝ) (a b i j : Nat) :
    gauge g gs [a, b, i, j] = gauge g gs [b, a, i, j] ∧
      gauge g gs [a, b, i, j] = gauge g gs [a, b, j, i] := by
  have hd := g2h2_distinct g gs
  rw [gauge, assign_look _ hd]
  constructor
  · refine (look_swap _ hd swapFirst swapFirst_swapFirst ?_ [a, b, i, j]).symm
    simp only [g2h2, List.forall_mem_cons]
    iterate 40 refine ⟨rfl, ?_⟩
    simp
  · refine (look_swap _ hd swapLast swapLast_swapLast ?_ [a, b, i, j]).symm
    simp only [g2h2, List.forall_mem_cons]
    iterate 40 refine ⟨rfl, ?_⟩
    simp

end Verif.Lagrangian.CxSM
