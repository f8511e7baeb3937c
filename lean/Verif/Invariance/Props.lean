import Verif.Invariance.OneDoublet
import Verif.Invariance.Parity
import Verif.Invariance.Conjugation
import Verif.Lagrangian.SM.Props
import Verif.Lagrangian.CxSM.Counter
import Verif.Lagrangian.R2HDM.Counter
import Verif.Lagrangian.C2HDM.Counter
import Verif.Lagrangian.N2HDM.Counter
import Verif.Lagrangian.CPintheDark.Counter

/-!
# The symmetries of the effective potential: the properties
-/

namespace Verif.Invariance

open Verif.Potential Verif.Potential.Spec Verif.Lagrangian Verif.Lagrangian.Spec Verif.Spectrum
  Verif.Yukawa Verif.Debye Matrix
open scoped BigOperators ComplexConjugate

/-- The thermal masses of the gauge bosons respect the gauge symmetry. -/
theorem debye_general {n N : Nat} {g gs : ℝ} {G : List Nat → ℝ} {D : Matrix (Fin 4) (Fin 4) ℝ}
    (h : (g = 0 → calculateDebyeGauge 4 n G none = none) ∧
      (g ≠ 0 → ∃ D, calculateDebyeGauge 4 n G none = some D ∧ Debye.Spec.IsDiagonal D
        (fun a => if a = 3 then Debye.Spec.gaugeBoson N gs else Debye.Spec.gaugeBoson N g)))
    (hD : calculateDebyeGauge 4 n G none = some D) : ∃ x y, D = diagonal ![x, x, x, y] := by
  have hg : g ≠ 0 := by
    intro h0
    rw [h.1 h0] at hD
    cases hD
  obtain ⟨D', e, hD'⟩ := h.2 hg
  rw [e] at hD
  obtain rfl := Option.some.inj hD
  exact gauge_diagonal hD'

theorem debye_simplified {n : Nat} {g gs d d3 : ℝ} {G : List Nat → ℝ} {D : Matrix (Fin 4) (Fin 4) ℝ}
    (h : calculateDebyeGauge 4 n G (some (gaugeSimplified g gs)) =
      some (diagonal fun a => if a = 3 then d3 else d))
    (hD : calculateDebyeGauge 4 n G (some (gaugeSimplified g gs)) = some D) :
    ∃ x y, D = diagonal ![x, x, x, y] := by
  rw [h] at hD
  obtain rfl := Option.some.inj hD
  refine ⟨d, d3, congrArg diagonal (funext fun a => ?_)⟩
  fin_cases a <;> simp

/-! ### The one-loop potential is invariant at every temperature -/

/-- Standard model. -/
theorem C82_sm_one_loop {S : Solver} (hS : S.Correct) (p : SM.Par ℝ) (g gs : ℝ) (c : Constants)
    (hV : c.ckm ∈ unitaryGroup (Fin 3) ℂ) (v : ℝ) (force : Bool) (D : Matrix (Fin 4) (Fin 4) ℝ)
    (hD : calculateDebyeGauge 4 4 (SM.gauge g gs) none = some D) (scale : ℝ) (JB JF : Thermal)
    (T : ℝ) :
    SM.GaugeInvariant fun φ => v1Loop ((smTensors p g gs c v force D).spectra S scale JB JF) φ T 0 :=
  sm_loop hS p g gs c hV v force D (debye_general (C81_sm_gauge g gs) hD) scale JB JF T

/-- Standard model with a complex singlet. -/
theorem C82_cxsm_one_loop {S : Solver} (hS : S.Correct) (p : CxSM.Par) (g gs : ℝ) (c : Constants)
    (hV : c.ckm ∈ unitaryGroup (Fin 3) ℂ) (v : ℝ) (force : Bool) (D : Matrix (Fin 4) (Fin 4) ℝ)
    (hD : calculateDebyeGauge 4 6 (CxSM.gauge g gs) none = some D) (scale : ℝ) (JB JF : Thermal)
    (T : ℝ) :
    CxSM.GaugeInvariant fun φ =>
      v1Loop ((cxsmTensors p g gs c v force D).spectra S scale JB JF) φ T 0 :=
  cxsm_loop hS p g gs c hV v force D (debye_general (C81_cxsm_gauge g gs) hD) scale JB JF T

/-- Real two Higgs doublet model; the neutral fields may be conjugated as well. -/
theorem C82_r2hdm_one_loop {S : Solver} (hS : S.Correct) (p : R2HDM.Par ℝ) (g gs : ℝ) (c : Constants)
    (hV : c.ckm ∈ unitaryGroup (Fin 3) ℂ) (cosBeta sinBeta : ℝ) (type : Int)
    (ht : TwoHDM.Documented type) (force : Bool) (D : Matrix (Fin 4) (Fin 4) ℝ)
    (hD : calculateDebyeGauge 4 8 (R2HDM.gauge g gs) (some (gaugeSimplified g gs)) = some D)
    (scale : ℝ) (JB JF : Thermal) (T : ℝ) :
    TwoDoublets.GaugeInvariant (fun φ =>
      v1Loop ((r2hdmTensors p g gs c cosBeta sinBeta type force D).spectra S scale JB JF) φ T 0) ∧
    TwoDoublets.CPInvariant (fun φ =>
      v1Loop ((r2hdmTensors p g gs c cosBeta sinBeta type force D).spectra S scale JB JF) φ T 0) :=
  have hd := debye_simplified (C81_r2hdm_gauge g gs).1 hD
  ⟨r2hdm_loop hS p g gs c hV cosBeta sinBeta type ht force D hd scale JB JF T,
    r2hdm_cp hS p g gs c hV cosBeta sinBeta type ht force D hd scale JB JF T⟩

/-- Complex two Higgs doublet model. -/
theorem C82_c2hdm_one_loop {S : Solver} (hS : S.Correct) (p : C2HDM.Par ℝ) (g gs : ℝ) (c : Constants)
    (hV : c.ckm ∈ unitaryGroup (Fin 3) ℂ) (cosBeta sinBeta : ℝ) (type : Int)
    (ht : TwoHDM.Documented type) (force : Bool) (D : Matrix (Fin 4) (Fin 4) ℝ)
    (hD : calculateDebyeGauge 4 8 (C2HDM.gauge g gs) (some (gaugeSimplified g gs)) = some D)
    (scale : ℝ) (JB JF : Thermal) (T : ℝ) :
    TwoDoublets.GaugeInvariant fun φ =>
      v1Loop ((c2hdmTensors p g gs c cosBeta sinBeta type force D).spectra S scale JB JF) φ T 0 :=
  c2hdm_loop hS p g gs c hV cosBeta sinBeta type ht force D
    (debye_simplified (C81_c2hdm_gauge g gs).1 hD) scale JB JF T

/-- Next-to-minimal two Higgs doublet model; the neutral fields may be conjugated as well. -/
theorem C82_n2hdm_one_loop {S : Solver} (hS : S.Correct) (p : N2HDM.Par ℝ) (g gs : ℝ) (c : Constants)
    (hV : c.ckm ∈ unitaryGroup (Fin 3) ℂ) (cosBeta sinBeta : ℝ) (type : Int)
    (ht : TwoHDM.Documented type) (force : Bool) (D : Matrix (Fin 4) (Fin 4) ℝ)
    (hD : calculateDebyeGauge 4 9 (N2HDM.gauge g gs) (some (gaugeSimplified g gs)) = some D)
    (scale : ℝ) (JB JF : Thermal) (T : ℝ) :
    Singlet.GaugeInvariant N2HDM.origin (fun φ =>
      v1Loop ((n2hdmTensors p g gs c cosBeta sinBeta type force D).spectra S scale JB JF) φ T 0) ∧
    Singlet.CPInvariant N2HDM.origin (fun φ =>
      v1Loop ((n2hdmTensors p g gs c cosBeta sinBeta type force D).spectra S scale JB JF) φ T 0) :=
  have hd := debye_simplified (C81_n2hdm_gauge g gs).1 hD
  ⟨n2hdm_loop hS p g gs c hV cosBeta sinBeta type ht force D hd scale JB JF T,
    n2hdm_cp hS p g gs c hV cosBeta sinBeta type ht force D hd scale JB JF T⟩

/-- CP in the Dark; the fields of the dark sector may change their sign as well. -/
theorem C82_cpinthedark_one_loop {S : Solver} (hS : S.Correct) (p : CPintheDark.Par ℝ) (g gs : ℝ)
    (c : Constants) (hV : c.ckm ∈ unitaryGroup (Fin 3) ℂ) (v : ℝ) (force : Bool)
    (D : Matrix (Fin 4) (Fin 4) ℝ)
    (hD : calculateDebyeGauge 4 9 (CPintheDark.gauge g gs) none = some D) (scale : ℝ)
    (JB JF : Thermal) (T : ℝ) :
    Singlet.GaugeInvariant CPintheDark.origin (fun φ =>
      v1Loop ((darkTensors p g gs c v force D).spectra S scale JB JF) φ T 0) ∧
    CPintheDark.ParityInvariant (fun φ =>
      v1Loop ((darkTensors p g gs c v force D).spectra S scale JB JF) φ T 0) :=
  have hd := debye_general (C81_cpinthedark_gauge g gs) hD
  ⟨dark_loop hS p g gs c hV v force D hd scale JB JF T,
    dark_parity hS p g gs c hV v force D hd scale JB JF T⟩

/-- The hypotheses are met by the constants of the program. -/
example : (∃ S : Solver, S.Correct) ∧ (getSMConstants numbers).ckm ∈ unitaryGroup (Fin 3) ℂ ∧
    TwoHDM.Documented 2 ∧
    (∃ D, calculateDebyeGauge 4 4 (SM.gauge (65 / 100) (36 / 100)) none = some D) ∧
    ∃ D, calculateDebyeGauge 4 8 (R2HDM.gauge (65 / 100) (36 / 100))
      (some (gaugeSimplified (65 / 100) (36 / 100))) = some D :=
  ⟨solver_exists, C79_ckm_unitary numbers, .inr (.inl rfl),
    ((C81_sm_gauge (65 / 100) (36 / 100)).2 (by norm_num)).imp fun _ h => h.1,
    ⟨_, (C81_r2hdm_gauge (65 / 100) (36 / 100)).1⟩⟩

/-! ### The effective potential -/

/-- Standard model: with counterterms without tadpoles the effective potential is invariant. -/
theorem C82_sm_potential {S : Solver} (hS : S.Correct) (p : SM.Par ℝ) (ct : SM.CT ℝ) (g gs : ℝ)
    (c : Constants) (hV : c.ckm ∈ unitaryGroup (Fin 3) ℂ) (v : ℝ) (force : Bool)
    (D : Matrix (Fin 4) (Fin 4) ℝ) (hD : calculateDebyeGauge 4 4 (SM.gauge g gs) none = some D)
    (scale : ℝ) (JB JF : Thermal) (T : ℝ)
    (h : ct.dT1 = 0 ∧ ct.dT2 = 0 ∧ ct.dT3 = 0 ∧ ct.dT4 = 0) :
    SM.GaugeInvariant ((smTensors p g gs c v force D).effective (SM.counter ct) none S scale JB JF T) := by
  intro a θ φ
  obtain ⟨h1, h2, h3, h4⟩ := h
  unfold Tensors.effective
  refine congrArg₂ (· + ·) (congrArg₂ (· + ·) ?_ ?_)
    (C82_sm_one_loop hS p g gs c hV v force D hD scale JB JF T a θ φ)
  · refine Complex.ofReal_injective ?_
    show ((vTree false _ (SM.tree p) _ 0 false : ℝ) : ℂ) = ((vTree false _ (SM.tree p) _ 0 false : ℝ) : ℂ)
    rw [SM.C74_sm_potential, SM.C74_sm_potential, sm_dagger]
  · refine Complex.ofReal_injective ?_
    show ((counterTerm false _ _ _ 0 false : ℝ) : ℂ) = ((counterTerm false _ _ _ 0 false : ℝ) : ℂ)
    rw [SM.C74_sm_counterterms, SM.C74_sm_counterterms, sm_dagger]
    simp [h1, h2, h3, h4]

/-- Standard model with a complex singlet: the same, the tadpoles of the singlet are allowed. -/
theorem C82_cxsm_potential {S : Solver} (hS : S.Correct) (p : CxSM.Par) (ct : CxSM.CT) (g gs : ℝ)
    (c : Constants) (hV : c.ckm ∈ unitaryGroup (Fin 3) ℂ) (v : ℝ) (force : Bool)
    (D : Matrix (Fin 4) (Fin 4) ℝ) (hD : calculateDebyeGauge 4 6 (CxSM.gauge g gs) none = some D)
    (scale : ℝ) (JB JF : Thermal) (T : ℝ)
    (h : ct.dT1 = 0 ∧ ct.dT2 = 0 ∧ ct.dT3 = 0 ∧ ct.dT4 = 0) :
    CxSM.GaugeInvariant
      ((cxsmTensors p g gs c v force D).effective (CxSM.counter ct) none S scale JB JF T) := by
  intro a θ φ
  obtain ⟨h1, h2, h3, h4⟩ := h
  have hs := (CxSM.higgs_rotate a θ φ).2
  have hd := cxsm_dagger a θ φ
  have h45 : rotate (CxSM.generator a) θ φ 4 = φ 4 ∧ rotate (CxSM.generator a) θ φ 5 = φ 5 := by
    constructor <;> simp only [rotate_apply, CxSM.generator_apply] <;> fin_cases a <;> simp
  unfold Tensors.effective
  refine congrArg₂ (· + ·) (congrArg₂ (· + ·) ?_ ?_)
    (C82_cxsm_one_loop hS p g gs c hV v force D hD scale JB JF T a θ φ)
  · refine Complex.ofReal_injective ?_
    show ((vTree false _ (CxSM.tree p) _ 0 false : ℝ) : ℂ) =
      ((vTree false _ (CxSM.tree p) _ 0 false : ℝ) : ℂ)
    rw [CxSM.C74_cxsm_potential, CxSM.C74_cxsm_potential, hs]
    simp only [CxSM.potential, hd]
  · refine Complex.ofReal_injective ?_
    show ((counterTerm false _ _ _ 0 false : ℝ) : ℂ) = ((counterTerm false _ _ _ 0 false : ℝ) : ℂ)
    rw [CxSM.C74_cxsm_counterterms, CxSM.C74_cxsm_counterterms, hs]
    simp only [CxSM.potential, hd, h1, h2, h3, h4, h45.1, h45.2, zero_mul]

/-- Real two Higgs doublet model. -/
theorem C82_r2hdm_potential {S : Solver} (hS : S.Correct) (p : R2HDM.Par ℝ) (ct : R2HDM.CT ℝ)
    (g gs : ℝ) (c : Constants) (hV : c.ckm ∈ unitaryGroup (Fin 3) ℂ) (cosBeta sinBeta : ℝ)
    (type : Int) (ht : TwoHDM.Documented type) (force : Bool) (D : Matrix (Fin 4) (Fin 4) ℝ)
    (hD : calculateDebyeGauge 4 8 (R2HDM.gauge g gs) (some (gaugeSimplified g gs)) = some D)
    (scale : ℝ) (JB JF : Thermal) (T : ℝ) (h : ct.DT1 = 0 ∧ ct.DT2 = 0 ∧ ct.DT3 = 0) :
    TwoDoublets.GaugeInvariant ((r2hdmTensors p g gs c cosBeta sinBeta type force D).effective
      (R2HDM.counter ct) none S scale JB JF T) := by
  intro a θ φ
  obtain ⟨h1, h2, h3⟩ := h
  obtain ⟨r1, r2⟩ := TwoDoublets.doublets_rotate a θ φ
  unfold Tensors.effective
  refine congrArg₂ (· + ·) (congrArg₂ (· + ·) ?_ ?_)
    ((C82_r2hdm_one_loop hS p g gs c hV cosBeta sinBeta type ht force D hD scale JB JF T).1 a θ φ)
  · refine Complex.ofReal_injective ?_
    show ((vTree false _ (R2HDM.tree p) _ 0 false : ℝ) : ℂ) =
      ((vTree false _ (R2HDM.tree p) _ 0 false : ℝ) : ℂ)
    rw [R2HDM.C74_r2hdm_potential, R2HDM.C74_r2hdm_potential, r1, r2, twoDoublet_rotation]
  · refine Complex.ofReal_injective ?_
    show ((counterTerm false _ _ _ 0 false : ℝ) : ℂ) = ((counterTerm false _ _ _ 0 false : ℝ) : ℂ)
    rw [R2HDM.C74_r2hdm_counterterms, R2HDM.C74_r2hdm_counterterms, r1, r2, twoDoublet_rotation]
    simp [h1, h2, h3]

/-- Complex two Higgs doublet model: the statement holds for the explicit potentials, but the program
uses the simplified ones. -/
theorem C82_c2hdm_potential_partial {S : Solver} (hS : S.Correct) (p : C2HDM.Par ℝ) (ct : C2HDM.CT ℝ)
    (g gs : ℝ) (c : Constants) (hV : c.ckm ∈ unitaryGroup (Fin 3) ℂ) (cosBeta sinBeta : ℝ)
    (type : Int) (ht : TwoHDM.Documented type) (force : Bool) (D : Matrix (Fin 4) (Fin 4) ℝ)
    (hD : calculateDebyeGauge 4 8 (C2HDM.gauge g gs) (some (gaugeSimplified g gs)) = some D)
    (scale : ℝ) (JB JF : Thermal) (T : ℝ)
    (h : ct.DTCharged = 0 ∧ ct.DT1 = 0 ∧ ct.DT2 = 0 ∧ ct.DT3 = 0) :
    TwoDoublets.GaugeInvariant ((c2hdmTensors p g gs c cosBeta sinBeta type force D).effective
      (C2HDM.counter ct) none S scale JB JF T) := by
  intro a θ φ
  obtain ⟨h0, h1, h2, h3⟩ := h
  obtain ⟨r1, r2⟩ := TwoDoublets.doublets_rotate a θ φ
  unfold Tensors.effective
  refine congrArg₂ (· + ·) (congrArg₂ (· + ·) ?_ ?_)
    (C82_c2hdm_one_loop hS p g gs c hV cosBeta sinBeta type ht force D hD scale JB JF T a θ φ)
  · refine Complex.ofReal_injective ?_
    show ((vTree false _ (C2HDM.tree p) _ 0 false : ℝ) : ℂ) =
      ((vTree false _ (C2HDM.tree p) _ 0 false : ℝ) : ℂ)
    rw [C2HDM.C74_c2hdm_potential, C2HDM.C74_c2hdm_potential, r1, r2, twoDoublet_rotation]
  · refine Complex.ofReal_injective ?_
    show ((counterTerm false _ _ _ 0 false : ℝ) : ℂ) = ((counterTerm false _ _ _ 0 false : ℝ) : ℂ)
    rw [C2HDM.C74_c2hdm_counterterms, C2HDM.C74_c2hdm_counterterms, r1, r2, twoDoublet_rotation]
    simp [h0, h1, h2, h3]

/-- Complex two Higgs doublet model: the effective potential as the program evaluates it is never
invariant, unless the first doublet has neither a mass nor a coupling to itself. -/
theorem C82_c2hdm_potential_fails {S : Solver} (hS : S.Correct) (p : C2HDM.Par ℝ) (ct : C2HDM.CT ℝ)
    (g gs : ℝ) (c : Constants) (hV : c.ckm ∈ unitaryGroup (Fin 3) ℂ) (cosBeta sinBeta : ℝ)
    (type : Int) (ht : TwoHDM.Documented type) (force : Bool) (D : Matrix (Fin 4) (Fin 4) ℝ)
    (hD : calculateDebyeGauge 4 8 (C2HDM.gauge g gs) (some (gaugeSimplified g gs)) = some D)
    (scale : ℝ) (JB JF : Thermal) (T : ℝ)
    (h : p.u1 + ct.Du1CT ≠ 0 ∨ p.L1 + ct.DL1CT ≠ 0) :
    ¬ TwoDoublets.GaugeInvariant ((c2hdmTensors p g gs c cosBeta sinBeta type force D).effective
      (C2HDM.counter ct) (some (C2HDM.treeSimplified p, C2HDM.counterSimplified ct)) S scale JB JF T) := by
  intro hI
  have key : ∀ x : ℝ, 1 / 2 * (p.u1 + ct.Du1CT) * x ^ 2 + 1 / 8 * (p.L1 + ct.DL1CT) * x ^ 4 +
      ct.DT1 * x = 0 := by
    intro x
    have e := hI 3 (Real.pi / 2) ![0, 0, 0, 0, x, 0, 0, 0]
    have l := C82_c2hdm_one_loop hS p g gs c hV cosBeta sinBeta type ht force D hD scale JB JF T 3
      (Real.pi / 2) ![0, 0, 0, 0, x, 0, 0, 0]
    unfold Tensors.effective at e
    have l' := sub_eq_zero.2 l
    dsimp only at l'
    have e' := sub_eq_zero.2 e
    rw [add_sub_add_comm, l', add_zero] at e'
    simp [vTree, counterTerm, C2HDM.treeSimplified, C2HDM.counterSimplified, rotate_apply,
      TwoDoublets.generator_apply] at e'
    linarith
  have k1 := key 1
  have k2 := key (-1)
  have k3 := key 2
  have hL : p.L1 + ct.DL1CT = 0 := by linarith
  have hu : p.u1 + ct.Du1CT = 0 := by linarith
  exact h.elim (fun h => h hu) (fun h => h hL)

/-- Next-to-minimal two Higgs doublet model: the tadpole of the singlet is allowed. -/
theorem C82_n2hdm_potential {S : Solver} (hS : S.Correct) (p : N2HDM.Par ℝ) (ct : N2HDM.CT ℝ)
    (g gs : ℝ) (c : Constants) (hV : c.ckm ∈ unitaryGroup (Fin 3) ℂ) (cosBeta sinBeta : ℝ)
    (type : Int) (ht : TwoHDM.Documented type) (force : Bool) (D : Matrix (Fin 4) (Fin 4) ℝ)
    (hD : calculateDebyeGauge 4 9 (N2HDM.gauge g gs) (some (gaugeSimplified g gs)) = some D)
    (scale : ℝ) (JB JF : Thermal) (T : ℝ) (h : ct.DT1 = 0 ∧ ct.DT2 = 0) :
    Singlet.GaugeInvariant N2HDM.origin ((n2hdmTensors p g gs c cosBeta sinBeta type force D).effective
      (N2HDM.counter ct) none S scale JB JF T) := by
  intro s a θ φ
  obtain ⟨h1, h2⟩ := h
  unfold Tensors.effective
  refine congrArg₂ (· + ·) (congrArg₂ (· + ·) ?_ ?_)
    ((C82_n2hdm_one_loop hS p g gs c hV cosBeta sinBeta type ht force D hD scale JB JF T).1 s a θ φ)
  · refine Complex.ofReal_injective ?_
    show ((vTree false _ (N2HDM.tree p) _ 0 false : ℝ) : ℂ) =
      ((vTree false _ (N2HDM.tree p) _ 0 false : ℝ) : ℂ)
    rw [N2HDM.C74_n2hdm_potential, N2HDM.C74_n2hdm_potential, n2hdm_documented]
  · refine Complex.ofReal_injective ?_
    show ((counterTerm false _ _ _ 0 false : ℝ) : ℂ) = ((counterTerm false _ _ _ 0 false : ℝ) : ℂ)
    rw [N2HDM.C74_n2hdm_counterterms, N2HDM.C74_n2hdm_counterterms, n2hdm_documented, h1, h2]
    congr 1
    simp [Singlet.place]

/-- CP in the Dark: the statement holds for the explicit potentials, but the program uses the
simplified ones. -/
theorem C82_cpinthedark_potential_partial {S : Solver} (hS : S.Correct) (p : CPintheDark.Par ℝ)
    (ct : CPintheDark.CT ℝ) (g gs : ℝ) (c : Constants) (hV : c.ckm ∈ unitaryGroup (Fin 3) ℂ) (v : ℝ)
    (force : Bool) (D : Matrix (Fin 4) (Fin 4) ℝ)
    (hD : calculateDebyeGauge 4 9 (CPintheDark.gauge g gs) none = some D) (scale : ℝ)
    (JB JF : Thermal) (T : ℝ) (h : ct.dTCB = 0 ∧ ct.dT1 = 0 ∧ ct.dT2 = 0 ∧ ct.dTCP = 0) :
    Singlet.GaugeInvariant CPintheDark.origin ((darkTensors p g gs c v force D).effective
      (CPintheDark.counter ct) none S scale JB JF T) := by
  intro s a θ φ
  obtain ⟨h0, h1, h2, h3⟩ := h
  unfold Tensors.effective
  refine congrArg₂ (· + ·) (congrArg₂ (· + ·) ?_ ?_)
    ((C82_cpinthedark_one_loop hS p g gs c hV v force D hD scale JB JF T).1 s a θ φ)
  · refine Complex.ofReal_injective ?_
    show ((vTree false _ (CPintheDark.tree p) _ 0 false : ℝ) : ℂ) =
      ((vTree false _ (CPintheDark.tree p) _ 0 false : ℝ) : ℂ)
    rw [CPintheDark.C74_cpinthedark_potential, CPintheDark.C74_cpinthedark_potential, dark_documented]
  · refine Complex.ofReal_injective ?_
    show ((counterTerm false _ _ _ 0 false : ℝ) : ℂ) = ((counterTerm false _ _ _ 0 false : ℝ) : ℂ)
    rw [CPintheDark.C74_cpinthedark_counterterms, CPintheDark.C74_cpinthedark_counterterms,
      dark_documented, h0, h1, h2, h3]
    congr 1
    simp [Singlet.place]

/-- CP in the Dark: the effective potential as the program evaluates it is never invariant, unless the
first doublet has neither a mass nor a coupling to itself. -/
theorem C82_cpinthedark_potential_fails {S : Solver} (hS : S.Correct) (p : CPintheDark.Par ℝ)
    (ct : CPintheDark.CT ℝ) (g gs : ℝ) (c : Constants) (hV : c.ckm ∈ unitaryGroup (Fin 3) ℂ) (v : ℝ)
    (force : Bool) (D : Matrix (Fin 4) (Fin 4) ℝ)
    (hD : calculateDebyeGauge 4 9 (CPintheDark.gauge g gs) none = some D) (scale : ℝ)
    (JB JF : Thermal) (T : ℝ) (h : p.m11s + ct.dm11s ≠ 0 ∨ p.L1 + ct.dL1 ≠ 0) :
    ¬ Singlet.GaugeInvariant CPintheDark.origin ((darkTensors p g gs c v force D).effective
      (CPintheDark.counter ct) (some (CPintheDark.treeSimplified p, CPintheDark.counterSimplified ct)) S
        scale JB JF T) := by
  intro hI
  have key : ∀ x : ℝ, 1 / 2 * (p.m11s + ct.dm11s) * x ^ 2 + 1 / 8 * (p.L1 + ct.dL1) * x ^ 4 +
      ct.dT1 * x = 0 := by
    intro x
    have e := hI 0 3 (Real.pi / 2) ![0, 0, 0, 0, x, 0, 0, 0]
    have l := (C82_cpinthedark_one_loop hS p g gs c hV v force D hD scale JB JF T).1 0 3
      (Real.pi / 2) ![0, 0, 0, 0, x, 0, 0, 0]
    unfold Tensors.effective at e
    have l' := sub_eq_zero.2 l
    dsimp only at l'
    have e' := sub_eq_zero.2 e
    rw [add_sub_add_comm, l', add_zero] at e'
    simp [vTree, counterTerm, CPintheDark.treeSimplified, CPintheDark.counterSimplified, rotate_apply,
      TwoDoublets.generator_apply, Singlet.place, CPintheDark.origin] at e'
    linarith
  have k1 := key 1
  have k2 := key (-1)
  have k3 := key 2
  have hL : p.L1 + ct.dL1 = 0 := by linarith
  have hu : p.m11s + ct.dm11s = 0 := by linarith
  exact h.elim (fun h => h hu) (fun h => h hL)

/-- Without masses and couplings there is nothing to violate the symmetry, with them there is: the
condition is met by a mass parameter of the size that the standard model needs. -/
example : ((-8000 : ℝ) + 0 ≠ 0 ∨ (0 : ℝ) + 0 ≠ 0) := .inl (by norm_num)

/-! ### The counterterms cancel the one-loop potential of the model

The theorems of C76 assume an invariant one-loop potential; here it is the one of the model at zero
temperature. -/

/-- Standard model. -/
theorem C82_sm_cancel {S : Solver} (hS : S.Correct) (p : SM.Par ℝ) (g gs : ℝ) (c : Constants)
    (hV : c.ckm ∈ unitaryGroup (Fin 3) ℂ) (v : ℝ) (force : Bool) (D : Matrix (Fin 4) (Fin 4) ℝ)
    (hD : calculateDebyeGauge 4 4 (SM.gauge g gs) none = some D) (scale : ℝ) (JB JF : Thermal)
    (v0 : ℝ) (hv : v0 ≠ 0) (N : Fin 4 → ℝ) (H : Fin 4 → Fin 4 → ℝ)
    (hE : Expansion (fun φ => v1Loop ((smTensors p g gs c v force D).spectra S scale JB JF) φ 0 0)
      (SM.vevTree v0) N H) :
    (∀ i, nablaVCT (SM.counter (SM.calcCT v0 N H)) (SM.vevTree v0) i = -N i) ∧
    (∀ i j, hessianCT (SM.counter (SM.calcCT v0 N H)) (SM.vevTree v0) i j = -H i j) ∧
    ∀ T, SM.GaugeInvariant ((smTensors p g gs c v force D).effective (SM.counter (SM.calcCT v0 N H)) none
      S scale JB JF T) := by
  obtain ⟨h1, h2, h3⟩ := SM.C76_sm_cancel _
    (C82_sm_one_loop hS p g gs c hV v force D hD scale JB JF 0) v0 hv N H hE
  exact ⟨h1, h2, fun T => C82_sm_potential hS p _ g gs c hV v force D hD scale JB JF T h3⟩

/-- Standard model with a complex singlet, with the conditions of C76 on the size of the derivatives and
on the mixing of the singlet. -/
theorem C82_cxsm_cancel_partial {S : Solver} (hS : S.Correct) (p : CxSM.Par) (g gs : ℝ) (c : Constants)
    (hV : c.ckm ∈ unitaryGroup (Fin 3) ℂ) (v : ℝ) (force : Bool) (D : Matrix (Fin 4) (Fin 4) ℝ)
    (hD : calculateDebyeGauge 4 6 (CxSM.gauge g gs) none = some D) (scale : ℝ) (JB JF : Thermal)
    (vh vs va ima1 : ℝ) (hv : vh ≠ 0) (N : Fin 6 → ℝ) (H : Fin 6 → Fin 6 → ℝ)
    (hE : Expansion (fun φ => v1Loop ((cxsmTensors p g gs c v force D).spectra S scale JB JF) φ 0 0)
      (CxSM.vevTree vh vs va) N H)
    (hN : ∀ i, N i = 0 ∨ 1 / 10 ^ 5 < |N i|) (hH : ∀ i j, H i j = 0 ∨ 1 / 10 ^ 5 < |H i j|)
    (hF : ∀ x ∈ (CxSM.formulas vh vs va ima1 N H).entries, x = 0 ∨ 1 / 10 ^ 5 < |x|)
    (hmix : H 3 4 * va = H 3 5 * vs) (hzero : vs = 0 → va = 0 → H 3 4 = 0 ∧ H 3 5 = 0) :
    (∀ i, nablaVCT (CxSM.counter (CxSM.calcCT vh vs va ima1 N H)) (CxSM.vevTree vh vs va) i = -N i) ∧
    (∀ i j, hessianCT (CxSM.counter (CxSM.calcCT vh vs va ima1 N H)) (CxSM.vevTree vh vs va) i j =
      -H i j) ∧
    ∀ T, CxSM.GaugeInvariant ((cxsmTensors p g gs c v force D).effective
      (CxSM.counter (CxSM.calcCT vh vs va ima1 N H)) none S scale JB JF T) := by
  obtain ⟨h1, h2, t1, t2, t3, t4, -⟩ := CxSM.C76_cxsm_cancel_partial _
    (C82_cxsm_one_loop hS p g gs c hV v force D hD scale JB JF 0) vh vs va ima1 hv N H hE hN hH hF hmix
      hzero
  exact ⟨h1, h2, fun T => C82_cxsm_potential hS p _ g gs c hV v force D hD scale JB JF T
    ⟨t1, t2, t3, t4⟩⟩

/-- Real two Higgs doublet model, with the condition of C76 on the size of the second derivatives. -/
theorem C82_r2hdm_cancel_partial {S : Solver} (hS : S.Correct) (p : R2HDM.Par ℝ) (g gs : ℝ)
    (c : Constants) (hV : c.ckm ∈ unitaryGroup (Fin 3) ℂ) (cosBeta sinBeta : ℝ) (type : Int)
    (ht : TwoHDM.Documented type) (force : Bool) (D : Matrix (Fin 4) (Fin 4) ℝ)
    (hD : calculateDebyeGauge 4 8 (R2HDM.gauge g gs) (some (gaugeSimplified g gs)) = some D)
    (scale : ℝ) (JB JF : Thermal) (v1 v2 : ℝ) (h1 : v1 ≠ 0) (h2 : v2 ≠ 0) (N : Fin 8 → ℝ)
    (H : Fin 8 → Fin 8 → ℝ)
    (hE : Expansion (fun φ => v1Loop ((r2hdmTensors p g gs c cosBeta sinBeta type force D).spectra S
      scale JB JF) φ 0 0) (R2HDM.vevTree v1 v2) N H)
    (hcut : ∀ i j, H i j = 0 ∨ 1 / 1000 < |H i j|) :
    (∀ i, nablaVCT (R2HDM.counter (R2HDM.calcCT v1 v2 N H)) (R2HDM.vevTree v1 v2) i = -N i) ∧
    (∀ i j, hessianCT (R2HDM.counter (R2HDM.calcCT v1 v2 N H)) (R2HDM.vevTree v1 v2) i j = -H i j) ∧
    ∀ T, TwoDoublets.GaugeInvariant ((r2hdmTensors p g gs c cosBeta sinBeta type force D).effective
      (R2HDM.counter (R2HDM.calcCT v1 v2 N H)) none S scale JB JF T) := by
  obtain ⟨hg, hc⟩ := C82_r2hdm_one_loop hS p g gs c hV cosBeta sinBeta type ht force D hD scale JB JF 0
  obtain ⟨k1, k2, k3⟩ := R2HDM.C76_r2hdm_cancel_partial _ hg hc v1 v2 h1 h2 N H hE hcut
  exact ⟨k1, k2, fun T => C82_r2hdm_potential hS p _ g gs c hV cosBeta sinBeta type ht force D hD scale
    JB JF T k3⟩

/-- Complex two Higgs doublet model, for the explicit potentials. -/
theorem C82_c2hdm_cancel {S : Solver} (hS : S.Correct) (p : C2HDM.Par ℝ) (g gs : ℝ)
    (c : Constants) (hV : c.ckm ∈ unitaryGroup (Fin 3) ℂ) (cosBeta sinBeta : ℝ) (type : Int)
    (ht : TwoHDM.Documented type) (force : Bool) (D : Matrix (Fin 4) (Fin 4) ℝ)
    (hD : calculateDebyeGauge 4 8 (C2HDM.gauge g gs) (some (gaugeSimplified g gs)) = some D)
    (scale : ℝ) (JB JF : Thermal) (v1 v2 : ℝ) (h1 : v1 ≠ 0) (h2 : v2 ≠ 0) (N : Fin 8 → ℝ)
    (H : Fin 8 → Fin 8 → ℝ)
    (hE : Expansion (fun φ => v1Loop ((c2hdmTensors p g gs c cosBeta sinBeta type force D).spectra S
      scale JB JF) φ 0 0) (C2HDM.vevTree v1 v2) N H) :
    (∀ i, nablaVCT (C2HDM.counter (C2HDM.calcCT v1 v2 N H)) (C2HDM.vevTree v1 v2) i = -N i) ∧
    (∀ i j, hessianCT (C2HDM.counter (C2HDM.calcCT v1 v2 N H)) (C2HDM.vevTree v1 v2) i j = -H i j) ∧
    ∀ T, TwoDoublets.GaugeInvariant ((c2hdmTensors p g gs c cosBeta sinBeta type force D).effective
      (C2HDM.counter (C2HDM.calcCT v1 v2 N H)) none S scale JB JF T) := by
  obtain ⟨k1, k2, k3⟩ := C2HDM.C76_c2hdm_cancel _
    (C82_c2hdm_one_loop hS p g gs c hV cosBeta sinBeta type ht force D hD scale JB JF 0) v1 v2 h1 h2 N H hE
  exact ⟨k1, k2, fun T => C82_c2hdm_potential_partial hS p _ g gs c hV cosBeta sinBeta type ht force D hD
    scale JB JF T k3⟩

/-- Next-to-minimal two Higgs doublet model. -/
theorem C82_n2hdm_cancel {S : Solver} (hS : S.Correct) (p : N2HDM.Par ℝ) (g gs : ℝ)
    (c : Constants) (hV : c.ckm ∈ unitaryGroup (Fin 3) ℂ) (cosBeta sinBeta : ℝ) (type : Int)
    (ht : TwoHDM.Documented type) (force : Bool) (D : Matrix (Fin 4) (Fin 4) ℝ)
    (hD : calculateDebyeGauge 4 9 (N2HDM.gauge g gs) (some (gaugeSimplified g gs)) = some D)
    (scale : ℝ) (JB JF : Thermal) (v1 v2 vs : ℝ) (h1 : v1 ≠ 0) (h2 : v2 ≠ 0) (hs : vs ≠ 0)
    (N : Fin 9 → ℝ) (H : Fin 9 → Fin 9 → ℝ)
    (hE : Expansion (fun φ => v1Loop ((n2hdmTensors p g gs c cosBeta sinBeta type force D).spectra S
      scale JB JF) φ 0 0) (N2HDM.vevTree v1 v2 vs) N H) :
    ∃ ct, N2HDM.calcCT v1 v2 vs N H = .ok ct ∧
    (∀ i, nablaVCT (N2HDM.counter ct) (N2HDM.vevTree v1 v2 vs) i = -N i) ∧
    (∀ i j, hessianCT (N2HDM.counter ct) (N2HDM.vevTree v1 v2 vs) i j = -H i j) ∧
    ∀ T, Singlet.GaugeInvariant N2HDM.origin
      ((n2hdmTensors p g gs c cosBeta sinBeta type force D).effective (N2HDM.counter ct) none S scale JB
        JF T) := by
  obtain ⟨hg, hc⟩ := C82_n2hdm_one_loop hS p g gs c hV cosBeta sinBeta type ht force D hD scale JB JF 0
  obtain ⟨ct, k0, k1, k2, t1, t2, -⟩ := N2HDM.C76_n2hdm_cancel _ hg hc v1 v2 vs h1 h2 hs N H hE
  exact ⟨ct, k0, k1, k2, fun T => C82_n2hdm_potential hS p _ g gs c hV cosBeta sinBeta type ht force D hD
    scale JB JF T ⟨t1, t2⟩⟩

/-- CP in the Dark, for the explicit potentials. -/
theorem C82_cpinthedark_cancel {S : Solver} (hS : S.Correct) (p : CPintheDark.Par ℝ) (g gs : ℝ)
    (c : Constants) (hV : c.ckm ∈ unitaryGroup (Fin 3) ℂ) (v : ℝ) (force : Bool)
    (D : Matrix (Fin 4) (Fin 4) ℝ)
    (hD : calculateDebyeGauge 4 9 (CPintheDark.gauge g gs) none = some D) (scale : ℝ)
    (JB JF : Thermal) (v1 : ℝ) (h1 : v1 ≠ 0) (N : Fin 9 → ℝ) (H : Fin 9 → Fin 9 → ℝ)
    (hE : Expansion (fun φ => v1Loop ((darkTensors p g gs c v force D).spectra S scale JB JF) φ 0 0)
      (CPintheDark.vevTree v1) N H) :
    (∀ i, nablaVCT (CPintheDark.counter (CPintheDark.calcCT v1 N H)) (CPintheDark.vevTree v1) i =
      -N i) ∧
    (∀ i j, hessianCT (CPintheDark.counter (CPintheDark.calcCT v1 N H)) (CPintheDark.vevTree v1) i j =
      -H i j) ∧
    ∀ T, Singlet.GaugeInvariant CPintheDark.origin ((darkTensors p g gs c v force D).effective
      (CPintheDark.counter (CPintheDark.calcCT v1 N H)) none S scale JB JF T) := by
  obtain ⟨hg, hP⟩ := C82_cpinthedark_one_loop hS p g gs c hV v force D hD scale JB JF 0
  obtain ⟨k1, k2, t0, t1, t2, t3, -⟩ := CPintheDark.C76_cpinthedark_cancel _ hg hP v1 h1 N H hE
  exact ⟨k1, k2, fun T => C82_cpinthedark_potential_partial hS p _ g gs c hV v force D hD scale JB JF T
    ⟨t0, t1, t2, t3⟩⟩

end Verif.Invariance
