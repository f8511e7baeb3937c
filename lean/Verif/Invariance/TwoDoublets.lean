import Verif.Invariance.Assemble

/-!
# Models with two doublets
-/

namespace Verif.Invariance

open Verif.Potential Verif.Potential.Spec Verif.Lagrangian Verif.Lagrangian.Spec Verif.Spectrum
  Verif.Yukawa Verif.Debye Matrix
open scoped BigOperators ComplexConjugate

theorem two_dagger (a : Fin 4) (θ : ℝ) (φ : Fin 8 → ℝ) :
    dagger (gaugeRotation a θ (TwoDoublets.phi1 φ)) (gaugeRotation a θ (TwoDoublets.phi1 φ)) =
      dagger (TwoDoublets.phi1 φ) (TwoDoublets.phi1 φ) ∧
    dagger (gaugeRotation a θ (TwoDoublets.phi1 φ)) (gaugeRotation a θ (TwoDoublets.phi2 φ)) =
      dagger (TwoDoublets.phi1 φ) (TwoDoublets.phi2 φ) ∧
    dagger (gaugeRotation a θ (TwoDoublets.phi2 φ)) (gaugeRotation a θ (TwoDoublets.phi1 φ)) =
      dagger (TwoDoublets.phi2 φ) (TwoDoublets.phi1 φ) ∧
    dagger (gaugeRotation a θ (TwoDoublets.phi2 φ)) (gaugeRotation a θ (TwoDoublets.phi2 φ)) =
      dagger (TwoDoublets.phi2 φ) (TwoDoublets.phi2 φ) :=
  ⟨dagger_rotation a θ _ _ _ _ _ _ _ _, dagger_rotation a θ _ _ _ _ _ _ _ _,
    dagger_rotation a θ _ _ _ _ _ _ _ _, dagger_rotation a θ _ _ _ _ _ _ _ _⟩

/-- The potential of two doublets does not change. -/
theorem twoDoublet_rotation (u1 u2 : ℝ) (m12 : ℂ) (l1 l2 l3 l4 : ℝ) (l5 l6 : ℂ) (a : Fin 4) (θ : ℝ)
    (φ : Fin 8 → ℝ) :
    twoDoublet u1 u2 m12 l1 l2 l3 l4 l5 l6 (gaugeRotation a θ (TwoDoublets.phi1 φ))
        (gaugeRotation a θ (TwoDoublets.phi2 φ)) =
      twoDoublet u1 u2 m12 l1 l2 l3 l4 l5 l6 (TwoDoublets.phi1 φ) (TwoDoublets.phi2 φ) := by
  obtain ⟨h11, h12, h21, h22⟩ := two_dagger a θ φ
  unfold twoDoublet
  rw [h11, h12, h21, h22]

/-- Sums of squares with equal weights in each doublet. -/
theorem two_square (a : Fin 4) (θ : ℝ) (φ : Fin 8 → ℝ) (d1 d2 : ℝ) :
    ∑ i, ![d1, d1, d2, d2, d1, d1, d2, d2] i * rotate (TwoDoublets.generator a) θ φ i ^ 2 =
      ∑ i, ![d1, d1, d2, d2, d1, d1, d2, d2] i * φ i ^ 2 := by
  obtain ⟨h11, -, -, h22⟩ := two_dagger a θ φ
  rw [← (TwoDoublets.doublets_rotate a θ φ).1] at h11
  rw [← (TwoDoublets.doublets_rotate a θ φ).2] at h22
  simp only [TwoDoublets.phi1, TwoDoublets.phi2, dagger_doublet] at h11 h22
  have e1 := congrArg Complex.re h11
  have e2 := congrArg Complex.re h22
  simp only [Complex.add_re, Complex.mul_re, Complex.ofReal_re, Complex.ofReal_im, Complex.I_re,
    Complex.I_im, mul_zero, zero_mul, sub_zero, add_zero] at e1 e2
  simp only [Fin.sum_univ_eight, Matrix.cons_val, Matrix.cons_val_zero, Matrix.cons_val_one]
  linear_combination 2 * d1 * e1 + 2 * d2 * e2

theorem downDoublet_rotation (type : Int) (a : Fin 4) (θ : ℝ) (Φ₁ Φ₂ : Fin 2 → ℂ) :
    Yukawa.Spec.downDoublet type (gaugeRotation a θ Φ₁) (gaugeRotation a θ Φ₂) =
      gaugeRotation a θ (Yukawa.Spec.downDoublet type Φ₁ Φ₂) := by
  unfold Yukawa.Spec.downDoublet
  split_ifs <;> rfl

theorem leptonDoublet_rotation (type : Int) (a : Fin 4) (θ : ℝ) (Φ₁ Φ₂ : Fin 2 → ℂ) :
    Yukawa.Spec.leptonDoublet type (gaugeRotation a θ Φ₁) (gaugeRotation a θ Φ₂) =
      gaugeRotation a θ (Yukawa.Spec.leptonDoublet type Φ₁ Φ₂) := by
  unfold Yukawa.Spec.leptonDoublet
  split_ifs <;> rfl

/-- Diagonal entries that are equal in each doublet. -/
def Equal8 (D : Fin 8 → Fin 8 → ℝ) : Prop :=
  (∀ i j, i ≠ j → D i j = 0) ∧ ∃ d1 d2, ∀ i, D i i = ![d1, d1, d2, d2, d1, d1, d2, d2] i

theorem equal8_of_diagonal {D : Fin 8 → Fin 8 → ℝ} {d1 d2 : ℝ}
    (h : Debye.Spec.IsDiagonal D ![d1, d1, d2, d2, d1, d1, d2, d2]) : Equal8 D := by
  refine ⟨h.2, D 0 0, D 2 2, fun i => ?_⟩
  fin_cases i
  · rfl
  · exact rounded_unique (h.1 1) (h.1 0)
  · rfl
  · exact rounded_unique (h.1 3) (h.1 2)
  · exact rounded_unique (h.1 4) (h.1 0)
  · exact rounded_unique (h.1 5) (h.1 0)
  · exact rounded_unique (h.1 6) (h.1 2)
  · exact rounded_unique (h.1 7) (h.1 2)

/-- A model with two doublets and the Yukawa couplings of a documented type. -/
theorem two_loop {S : Solver} (hS : S.Correct) (t : Tensors 8) (hsym : Symmetric t.scalar)
    (hW : ∀ a θ φ, polynomial t.scalar (rotate (TwoDoublets.generator a) θ φ) = polynomial t.scalar φ)
    (hDH : Equal8 t.debyeHiggs) (hDG : ∃ x y, t.debyeGauge = diagonal ![x, x, x, y]) (g gs : ℝ)
    (hGs : ∀ (a b : Fin 4) (i j : Fin 8), t.gauge [(a : Nat), (b : Nat), (i : Nat), (j : Nat)] =
      t.gauge [(b : Nat), (a : Nat), (i : Nat), (j : Nat)])
    (hG : ∀ (W : Fin 4 → ℝ) (φ : Fin 8 → ℝ),
      ((1 / 4 * ∑ a : Fin 4, ∑ b : Fin 4, ∑ i : Fin 8, ∑ j : Fin 8,
        t.gauge [(a : Nat), (b : Nat), (i : Nat), (j : Nat)] * (W a * (W b * (φ i * φ j))) : ℝ) : ℂ) =
      dagger (covariant g gs W (TwoDoublets.phi1 φ)) (covariant g gs W (TwoDoublets.phi1 φ)) +
        dagger (covariant g gs W (TwoDoublets.phi2 φ)) (covariant g gs W (TwoDoublets.phi2 φ)))
    (c : Constants) (hV : c.ckm ∈ unitaryGroup (Fin 3) ℂ) (v1 v2 : ℝ) (type : Int)
    (ht : TwoHDM.Documented type) (hQ : t.quark = TwoHDM.quarkTensor c v1 v2 type)
    (hL : t.lepton = TwoHDM.leptonTensor c v1 v2 type)
    (scale : ℝ) (JB JF : Thermal) (T : ℝ) :
    TwoDoublets.GaugeInvariant fun φ => v1Loop (t.spectra S scale JB JF) φ T 0 := by
  obtain ⟨x, y, hDG⟩ := hDG
  obtain ⟨hD0, d1, d2, hDd⟩ := hDH
  intro a θ φ
  have hsq := fun a b k => (TwoHDM.C78_2hdm_symmetric c v1 v2 type a b k).1
  have hsl := fun a b k => (TwoHDM.C78_2hdm_symmetric c v1 v2 type a b k).2
  obtain ⟨r1, r2⟩ := TwoDoublets.doublets_rotate a θ φ
  refine loop_invariant hS _ (by rw [hQ]; exact hsq) (by rw [hL]; exact hsl) scale JB JF _ _ T
    (fun T => ?_) (fun T => ?_) ?_ ?_
  · refine scalar_invariant _ hsym (rotateL (TwoDoublets.generator a) θ) (hW a θ) (fun φ => ?_) _ hD0
      (fun φ => ?_) φ T
    · have := two_square a θ φ 1 1
      simpa [Fin.sum_univ_eight, rotateL_apply] using this
    · simp only [hDd, rotateL_apply]
      exact two_square a θ φ d1 d2
  · rw [hDG]
    refine gauge_two g gs _ x y T φ _ hGs (fun W => hG W φ) (a := a) (θ := θ) fun W => ?_
    rw [hG W, r1, r2]
    rfl
  · rw [hQ]
    refine quark_charpoly _ hsq φ _ _ hV _ _
      (fun ψ => TwoHDM.C78_2hdm_quarks c v1 v2 type ht ψ φ) (a := a) (θ := θ) fun ψ => ?_
    rw [TwoHDM.C78_2hdm_quarks c v1 v2 type ht, r1, r2, downDoublet_rotation]
  · rw [hL]
    refine lepton_charpoly _ hsl φ _ _
      (fun ψ => TwoHDM.C78_2hdm_leptons c v1 v2 type ht ψ φ) (a := a) (θ := θ) fun ψ => ?_
    rw [TwoHDM.C78_2hdm_leptons c v1 v2 type ht, r1, r2, leptonDoublet_rotation]

/-! ### Real two Higgs doublet model -/

/-- The tensors of the real two Higgs doublet model. -/
noncomputable def r2hdmTensors (p : R2HDM.Par ℝ) (g gs : ℝ) (c : Constants) (cosBeta sinBeta : ℝ)
    (type : Int) (force : Bool) (D : Matrix (Fin 4) (Fin 4) ℝ) : Tensors 8 :=
  assemble (R2HDM.tree p) (R2HDM.gauge g gs)
    (TwoHDM.quarkTensor c (c.vev0 * cosBeta) (c.vev0 * sinBeta) type)
    (TwoHDM.leptonTensor c (c.vev0 * cosBeta) (c.vev0 * sinBeta) type)
    (simplified2HDM type c.mTop c.mBottom c.vev0 cosBeta sinBeta p.L1 p.L2 p.L3 p.L4 g gs) force D

theorem r2hdm_equal (p : R2HDM.Par ℝ) (g gs : ℝ) (c : Constants)
    (hV : c.ckm ∈ unitaryGroup (Fin 3) ℂ) (cosBeta sinBeta : ℝ) (type : Int)
    (ht : TwoHDM.Documented type) (force : Bool) (D : Matrix (Fin 4) (Fin 4) ℝ) :
    Equal8 (r2hdmTensors p g gs c cosBeta sinBeta type force D).debyeHiggs := by
  have h := C81_r2hdm_higgs p g gs c hV cosBeta sinBeta type ht (fun _ _ => 0)
  cases force
  · exact ⟨h.2.2, _, _, h.2.1⟩
  · exact equal8_of_diagonal h.1

theorem r2hdm_loop {S : Solver} (hS : S.Correct) (p : R2HDM.Par ℝ) (g gs : ℝ) (c : Constants)
    (hV : c.ckm ∈ unitaryGroup (Fin 3) ℂ) (cosBeta sinBeta : ℝ) (type : Int)
    (ht : TwoHDM.Documented type) (force : Bool) (D : Matrix (Fin 4) (Fin 4) ℝ)
    (hD : ∃ x y, D = diagonal ![x, x, x, y]) (scale : ℝ) (JB JF : Thermal) (T : ℝ) :
    TwoDoublets.GaugeInvariant fun φ =>
      v1Loop ((r2hdmTensors p g gs c cosBeta sinBeta type force D).spectra S scale JB JF) φ T 0 := by
  refine two_loop hS _ (R2HDM.C80_r2hdm_tree_symmetric p) (fun a θ φ => ?_)
    (r2hdm_equal p g gs c hV cosBeta sinBeta type ht force D) hD g gs
    (fun a b i j => (R2HDM.C77_r2hdm_gauge_symmetric _ _ a b i j).1)
    (fun W φ => R2HDM.C77_r2hdm_gauge g gs W φ) c hV _ _ type ht rfl rfl scale JB JF T
  show polynomial (R2HDM.tree p) _ = polynomial (R2HDM.tree p) _
  rw [tree_polynomial _ (R2HDM.C74_r2hdm_potential p _ (fun _ => 0) true),
    tree_polynomial _ (R2HDM.C74_r2hdm_potential p _ (fun _ => 0) true),
      (TwoDoublets.doublets_rotate a θ φ).1, (TwoDoublets.doublets_rotate a θ φ).2, twoDoublet_rotation]

/-! ### Complex two Higgs doublet model -/

/-- The tensors of the complex two Higgs doublet model. -/
noncomputable def c2hdmTensors (p : C2HDM.Par ℝ) (g gs : ℝ) (c : Constants) (cosBeta sinBeta : ℝ)
    (type : Int) (force : Bool) (D : Matrix (Fin 4) (Fin 4) ℝ) : Tensors 8 :=
  assemble (C2HDM.tree p) (C2HDM.gauge g gs)
    (TwoHDM.quarkTensor c (c.vev0 * cosBeta) (c.vev0 * sinBeta) type)
    (TwoHDM.leptonTensor c (c.vev0 * cosBeta) (c.vev0 * sinBeta) type)
    (simplified2HDM type c.mTop c.mBottom c.vev0 cosBeta sinBeta p.L1 p.L2 p.L3 p.L4 g gs) force D

theorem c2hdm_equal (p : C2HDM.Par ℝ) (g gs : ℝ) (c : Constants)
    (hV : c.ckm ∈ unitaryGroup (Fin 3) ℂ) (cosBeta sinBeta : ℝ) (type : Int)
    (ht : TwoHDM.Documented type) (force : Bool) (D : Matrix (Fin 4) (Fin 4) ℝ) :
    Equal8 (c2hdmTensors p g gs c cosBeta sinBeta type force D).debyeHiggs := by
  have h := C81_c2hdm_higgs p g gs c hV cosBeta sinBeta type ht (fun _ _ => 0)
  cases force
  · exact ⟨h.2.2, _, _, h.2.1⟩
  · exact equal8_of_diagonal h.1

theorem c2hdm_loop {S : Solver} (hS : S.Correct) (p : C2HDM.Par ℝ) (g gs : ℝ) (c : Constants)
    (hV : c.ckm ∈ unitaryGroup (Fin 3) ℂ) (cosBeta sinBeta : ℝ) (type : Int)
    (ht : TwoHDM.Documented type) (force : Bool) (D : Matrix (Fin 4) (Fin 4) ℝ)
    (hD : ∃ x y, D = diagonal ![x, x, x, y]) (scale : ℝ) (JB JF : Thermal) (T : ℝ) :
    TwoDoublets.GaugeInvariant fun φ =>
      v1Loop ((c2hdmTensors p g gs c cosBeta sinBeta type force D).spectra S scale JB JF) φ T 0 := by
  refine two_loop hS _ (C2HDM.C80_c2hdm_tree_symmetric p) (fun a θ φ => ?_)
    (c2hdm_equal p g gs c hV cosBeta sinBeta type ht force D) hD g gs
    (fun a b i j => (C2HDM.C77_c2hdm_gauge_symmetric _ _ a b i j).1)
    (fun W φ => C2HDM.C77_c2hdm_gauge g gs W φ) c hV _ _ type ht rfl rfl scale JB JF T
  show polynomial (C2HDM.tree p) _ = polynomial (C2HDM.tree p) _
  rw [tree_polynomial _ (C2HDM.C74_c2hdm_potential p _ (fun _ => 0) true),
    tree_polynomial _ (C2HDM.C74_c2hdm_potential p _ (fun _ => 0) true),
      (TwoDoublets.doublets_rotate a θ φ).1, (TwoDoublets.doublets_rotate a θ φ).2, twoDoublet_rotation]

end Verif.Invariance
