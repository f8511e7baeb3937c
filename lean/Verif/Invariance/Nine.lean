import Verif.Invariance.TwoDoublets

/-!
# Models with two doublets and a real singlet
-/

namespace Verif.Invariance

open Verif.Potential Verif.Potential.Spec Verif.Lagrangian Verif.Lagrangian.Spec Verif.Spectrum
  Verif.Yukawa Verif.Debye Matrix
open scoped BigOperators ComplexConjugate

/-- The gauge rotation of the doublets among nine fields. -/
noncomputable def rotateNine (σ : Fin 8 → Fin 9) (π : Fin 9 → Fin 8) (a : Fin 4) (θ : ℝ)
    (φ : Fin 9 → ℝ) : Fin 9 → ℝ :=
  Singlet.place π (φ 8) (rotate (TwoDoublets.generator a) θ fun i => φ (σ i))

theorem rotateNine_place {σ : Fin 8 → Fin 9} {π : Fin 9 → Fin 8} (ho : Singlet.Order σ π) (a : Fin 4)
    (θ s : ℝ) (φ : Fin 8 → ℝ) :
    rotateNine σ π a θ (Singlet.place π s φ) =
      Singlet.place π s (rotate (TwoDoublets.generator a) θ φ) := by
  have e : (fun i => Singlet.place π s φ (σ i)) = φ := by
    funext i
    rw [Singlet.place, if_neg (ho.ne i), ho.left]
  rw [rotateNine, e]
  rfl

/-- It is linear. -/
noncomputable def rotateNineL (σ : Fin 8 → Fin 9) (π : Fin 9 → Fin 8) (a : Fin 4) (θ : ℝ) :
    (Fin 9 → ℝ) →ₗ[ℝ] (Fin 9 → ℝ) where
  toFun := rotateNine σ π a θ
  map_add' x y := by
    funext k
    simp only [rotateNine, Singlet.place, Pi.add_apply]
    by_cases h : k = 8
    · simp [h]
    · simp only [if_neg h]
      exact congrFun ((rotateL (TwoDoublets.generator a) θ).map_add (fun i => x (σ i))
        fun i => y (σ i)) (π k)
  map_smul' r x := by
    funext k
    simp only [rotateNine, Singlet.place, Pi.smul_apply, RingHom.id_apply]
    by_cases h : k = 8
    · simp [h]
    · simp only [if_neg h]
      exact congrFun ((rotateL (TwoDoublets.generator a) θ).map_smul r fun i => x (σ i)) (π k)

theorem rotateNineL_place {σ : Fin 8 → Fin 9} {π : Fin 9 → Fin 8} (ho : Singlet.Order σ π) (a : Fin 4)
    (θ s : ℝ) (φ : Fin 8 → ℝ) :
    rotateNineL σ π a θ (Singlet.place π s φ) =
      Singlet.place π s (rotate (TwoDoublets.generator a) θ φ) :=
  rotateNine_place ho a θ s φ

/-- Every configuration of nine fields consists of doublets and a singlet. -/
theorem forall_place {σ : Fin 8 → Fin 9} {π : Fin 9 → Fin 8} (ho : Singlet.Order σ π)
    {P : (Fin 9 → ℝ) → Prop} (h : ∀ s φ, P (Singlet.place π s φ)) (φ : Fin 9 → ℝ) : P φ := by
  rw [← Singlet.place_self ho φ]
  exact h _ _

/-- Weighted squares are the squares of the doublets and of the singlet. -/
theorem nine_square {σ : Fin 8 → Fin 9} {π : Fin 9 → Fin 8} (w : Fin 9 → ℝ) (d1 d2 : ℝ)
    (hw : ∀ (s : ℝ) (φ : Fin 8 → ℝ), ∑ i, w i * Singlet.place π s φ i ^ 2 =
      ∑ i, ![d1, d1, d2, d2, d1, d1, d2, d2] i * φ i ^ 2 + w 8 * s ^ 2)
    (ho : Singlet.Order σ π) (a : Fin 4) (θ : ℝ) (φ : Fin 9 → ℝ) :
    ∑ i, w i * rotateNineL σ π a θ φ i ^ 2 = ∑ i, w i * φ i ^ 2 := by
  revert φ
  refine forall_place ho fun s φ => ?_
  rw [rotateNineL_place ho, hw, hw, two_square]

/-! ### N2HDM -/

/-- The tensors of the N2HDM. -/
noncomputable def n2hdmTensors (p : N2HDM.Par ℝ) (g gs : ℝ) (c : Constants) (cosBeta sinBeta : ℝ)
    (type : Int) (force : Bool) (D : Matrix (Fin 4) (Fin 4) ℝ) : Tensors 9 :=
  assemble (N2HDM.tree p) (N2HDM.gauge g gs)
    (TwoHDM.quarkTensorN c (c.vev0 * cosBeta) (c.vev0 * sinBeta) type)
    (TwoHDM.leptonTensorN c (c.vev0 * cosBeta) (c.vev0 * sinBeta) type)
    (simplifiedN2HDM type c.mTop c.mBottom c.vev0 cosBeta sinBeta p.L1 p.L2 p.L3 p.L4 p.NL6 p.NL7
      p.NL8 g gs) force D

theorem n2hdm_phi (s : ℝ) (φ : Fin 8 → ℝ) :
    N2HDM.phi1 (Singlet.place N2HDM.origin s φ) = TwoDoublets.phi1 φ ∧
      N2HDM.phi2 (Singlet.place N2HDM.origin s φ) = TwoDoublets.phi2 φ := ⟨rfl, rfl⟩

theorem n2hdm_documented (u1 u2 m12 l1 l2 l3 l4 l5 us l6 l7 l8 : ℝ) (a : Fin 4) (θ s : ℝ)
    (φ : Fin 8 → ℝ) :
    N2HDM.documented u1 u2 m12 l1 l2 l3 l4 l5 us l6 l7 l8
        (Singlet.place N2HDM.origin s (rotate (TwoDoublets.generator a) θ φ)) =
      N2HDM.documented u1 u2 m12 l1 l2 l3 l4 l5 us l6 l7 l8 (Singlet.place N2HDM.origin s φ) := by
  obtain ⟨h11, -, -, h22⟩ := two_dagger a θ φ
  simp only [N2HDM.documented, n2hdm_phi, TwoDoublets.doublets_rotate, twoDoublet_rotation, h11, h22]
  rfl

/-- Thermal masses that are equal in each doublet. -/
theorem n2hdm_equal (p : N2HDM.Par ℝ) (g gs : ℝ) (c : Constants)
    (hV : c.ckm ∈ unitaryGroup (Fin 3) ℂ) (cosBeta sinBeta : ℝ) (type : Int)
    (ht : TwoHDM.Documented type) (force : Bool) (D : Matrix (Fin 4) (Fin 4) ℝ) :
    let t := (n2hdmTensors p g gs c cosBeta sinBeta type force D).debyeHiggs
    (∀ i j, i ≠ j → t i j = 0) ∧ ∃ d1 d2 s, ∀ i, t i i = ![d1, d2, d1, d2, d1, d2, d1, d2, s] i := by
  have h := C81_n2hdm_higgs p g gs c hV cosBeta sinBeta type ht (fun _ _ => 0)
  cases force
  · exact ⟨h.2.2, _, _, _, h.2.1⟩
  · let t := (n2hdmTensors p g gs c cosBeta sinBeta type true D).debyeHiggs
    refine ⟨h.1.2, t 0 0, t 1 1, t 8 8, fun i => ?_⟩
    · fin_cases i
      · rfl
      · rfl
      · exact rounded_unique (h.1.1 2) (h.1.1 0)
      · exact rounded_unique (h.1.1 3) (h.1.1 1)
      · exact rounded_unique (h.1.1 4) (h.1.1 0)
      · exact rounded_unique (h.1.1 5) (h.1.1 1)
      · exact rounded_unique (h.1.1 6) (h.1.1 0)
      · exact rounded_unique (h.1.1 7) (h.1.1 1)
      · rfl

set_option maxRecDepth 4000 in
theorem n2hdm_loop {S : Solver} (hS : S.Correct) (p : N2HDM.Par ℝ) (g gs : ℝ) (c : Constants)
    (hV : c.ckm ∈ unitaryGroup (Fin 3) ℂ) (cosBeta sinBeta : ℝ) (type : Int)
    (ht : TwoHDM.Documented type) (force : Bool) (D : Matrix (Fin 4) (Fin 4) ℝ)
    (hD : ∃ x y, D = diagonal ![x, x, x, y]) (scale : ℝ) (JB JF : Thermal) (T : ℝ) :
    Singlet.GaugeInvariant N2HDM.origin fun φ =>
      v1Loop ((n2hdmTensors p g gs c cosBeta sinBeta type force D).spectra S scale JB JF) φ T 0 := by
  obtain ⟨hD0, d1, d2, ds, hDd⟩ := n2hdm_equal p g gs c hV cosBeta sinBeta type ht force D
  obtain ⟨x, y, rfl⟩ := hD
  intro s a θ φ
  have hsq := fun a b k => (TwoHDM.C78_n2hdm_symmetric c (c.vev0 * cosBeta) (c.vev0 * sinBeta) type a b k).1
  have hsl := fun a b k => (TwoHDM.C78_n2hdm_symmetric c (c.vev0 * cosBeta) (c.vev0 * sinBeta) type a b k).2
  obtain ⟨r1, r2⟩ := TwoDoublets.doublets_rotate a θ φ
  refine loop_invariant hS _ hsq hsl scale JB JF _ _ T (fun T => ?_) (fun T => ?_) ?_ ?_
  · rw [← rotateNineL_place N2HDM.order]
    refine scalar_invariant _ (N2HDM.C80_n2hdm_tree_symmetric p) (rotateNineL N2HDM.position N2HDM.origin a θ)
      (forall_place N2HDM.order fun s φ => ?_) (fun φ => ?_) _ hD0 (fun φ => ?_) _ T
    · rw [rotateNineL_place N2HDM.order]
      show polynomial (N2HDM.tree p) _ = polynomial (N2HDM.tree p) _
      rw [tree_polynomial _ (N2HDM.C74_n2hdm_potential p _ (fun _ => 0) true),
        tree_polynomial _ (N2HDM.C74_n2hdm_potential p _ (fun _ => 0) true), n2hdm_documented]
    · have := nine_square (fun _ => 1) 1 1 (fun s φ => ?_) N2HDM.order a θ φ
      · simpa using this
      · simp [Fin.sum_univ_succ, Singlet.place, N2HDM.origin]
        ring
    · simp only [hDd]
      refine nine_square _ d1 d2 (fun s φ => ?_) N2HDM.order a θ φ
      simp [Fin.sum_univ_succ, Singlet.place, N2HDM.origin]
      ring
  · refine gauge_two g gs (N2HDM.gauge g gs) x y T _ _
      (fun a b i j => (N2HDM.C77_n2hdm_gauge_symmetric _ _ a b i j).1)
      (fun W => N2HDM.C77_n2hdm_gauge g gs W _) (a := a) (θ := θ) fun W => ?_
    refine (N2HDM.C77_n2hdm_gauge g gs W _).trans ?_
    rw [(n2hdm_phi _ _).1, (n2hdm_phi _ _).2, r1, r2]
    rfl
  · refine quark_charpoly _ hsq _ _ _ hV _ _
      (fun ψ => TwoHDM.C78_n2hdm_quarks c _ _ type ht ψ _) (a := a) (θ := θ) fun ψ => ?_
    refine (TwoHDM.C78_n2hdm_quarks c _ _ type ht ψ _).trans ?_
    rw [(n2hdm_phi _ _).1, (n2hdm_phi _ _).2, (n2hdm_phi _ _).1, (n2hdm_phi _ _).2, r1, r2,
      downDoublet_rotation]
  · refine lepton_charpoly _ hsl _ _ _
      (fun ψ => TwoHDM.C78_n2hdm_leptons c _ _ type ht ψ _) (a := a) (θ := θ) fun ψ => ?_
    refine (TwoHDM.C78_n2hdm_leptons c _ _ type ht ψ _).trans ?_
    rw [(n2hdm_phi _ _).1, (n2hdm_phi _ _).2, (n2hdm_phi _ _).1, (n2hdm_phi _ _).2, r1, r2,
      leptonDoublet_rotation]

/-! ### CP in the Dark -/

/-- The tensors of the model CP in the Dark. -/
noncomputable def darkTensors (p : CPintheDark.Par ℝ) (g gs : ℝ) (c : Constants) (v : ℝ) (force : Bool)
    (D : Matrix (Fin 4) (Fin 4) ℝ) : Tensors 9 :=
  assemble (CPintheDark.tree p) (CPintheDark.gauge g gs) (Yukawa.CPintheDark.quarkTensor c v)
    (Yukawa.CPintheDark.leptonTensor c v) notSimplified force D

theorem dark_phi (s : ℝ) (φ : Fin 8 → ℝ) :
    CPintheDark.phi1 (Singlet.place CPintheDark.origin s φ) = TwoDoublets.phi1 φ ∧
      CPintheDark.phi2 (Singlet.place CPintheDark.origin s φ) = TwoDoublets.phi2 φ := ⟨rfl, rfl⟩

theorem dark_documented (m11 m22 mS : ℝ) (A : ℂ) (l1 l2 l3 l4 : ℝ) (l5 : ℂ) (l6 l7 l8 : ℝ) (a : Fin 4)
    (θ s : ℝ) (φ : Fin 8 → ℝ) :
    CPintheDark.documented m11 m22 mS A l1 l2 l3 l4 l5 l6 l7 l8
        (Singlet.place CPintheDark.origin s (rotate (TwoDoublets.generator a) θ φ)) =
      CPintheDark.documented m11 m22 mS A l1 l2 l3 l4 l5 l6 l7 l8
        (Singlet.place CPintheDark.origin s φ) := by
  obtain ⟨h11, h12, -, h22⟩ := two_dagger a θ φ
  simp only [CPintheDark.documented, dark_phi, TwoDoublets.doublets_rotate, twoDoublet_rotation, h11,
    h12, h22]
  rfl

theorem dark_equal (p : CPintheDark.Par ℝ) (g gs : ℝ) (c : Constants)
    (hV : c.ckm ∈ unitaryGroup (Fin 3) ℂ) (v : ℝ) (force : Bool) (D : Matrix (Fin 4) (Fin 4) ℝ) :
    let t := (darkTensors p g gs c v force D).debyeHiggs
    (∀ i j, i ≠ j → t i j = 0) ∧ ∃ d1 d2 s, ∀ i, t i i = ![d1, d1, d2, d2, d1, d1, d2, d2, s] i := by
  have h := C81_cpinthedark_higgs p g gs c hV v force (fun _ _ => 0)
  let t := (darkTensors p g gs c v force D).debyeHiggs
  refine ⟨h.2, t 0 0, t 2 2, t 8 8, fun i => ?_⟩
  · fin_cases i
    · rfl
    · exact rounded_unique (h.1 1) (h.1 0)
    · rfl
    · exact rounded_unique (h.1 3) (h.1 2)
    · exact rounded_unique (h.1 4) (h.1 0)
    · exact rounded_unique (h.1 5) (h.1 0)
    · exact rounded_unique (h.1 6) (h.1 2)
    · exact rounded_unique (h.1 7) (h.1 2)
    · rfl

theorem dark_loop {S : Solver} (hS : S.Correct) (p : CPintheDark.Par ℝ) (g gs : ℝ) (c : Constants)
    (hV : c.ckm ∈ unitaryGroup (Fin 3) ℂ) (v : ℝ) (force : Bool) (D : Matrix (Fin 4) (Fin 4) ℝ)
    (hD : ∃ x y, D = diagonal ![x, x, x, y]) (scale : ℝ) (JB JF : Thermal) (T : ℝ) :
    Singlet.GaugeInvariant CPintheDark.origin fun φ =>
      v1Loop ((darkTensors p g gs c v force D).spectra S scale JB JF) φ T 0 := by
  obtain ⟨hD0, d1, d2, ds, hDd⟩ := dark_equal p g gs c hV v force D
  obtain ⟨x, y, rfl⟩ := hD
  intro s a θ φ
  have hsq := fun a b k => (Yukawa.CPintheDark.C78_cpinthedark_symmetric c v a b k).1
  have hsl := fun a b k => (Yukawa.CPintheDark.C78_cpinthedark_symmetric c v a b k).2
  obtain ⟨r1, r2⟩ := TwoDoublets.doublets_rotate a θ φ
  refine loop_invariant hS _ hsq hsl scale JB JF _ _ T (fun T => ?_) (fun T => ?_) ?_ ?_
  · rw [← rotateNineL_place CPintheDark.order]
    refine scalar_invariant _ (CPintheDark.C80_cpinthedark_tree_symmetric p)
      (rotateNineL CPintheDark.position CPintheDark.origin a θ)
      (forall_place CPintheDark.order fun s φ => ?_) (fun φ => ?_) _ hD0 (fun φ => ?_) _ T
    · rw [rotateNineL_place CPintheDark.order]
      show polynomial (CPintheDark.tree p) _ = polynomial (CPintheDark.tree p) _
      rw [tree_polynomial _ (CPintheDark.C74_cpinthedark_potential p _ (fun _ => 0) true),
        tree_polynomial _ (CPintheDark.C74_cpinthedark_potential p _ (fun _ => 0) true), dark_documented]
    · have := nine_square (fun _ => 1) 1 1 (fun s φ => ?_) CPintheDark.order a θ φ
      · simpa using this
      · simp [Fin.sum_univ_succ, Singlet.place, CPintheDark.origin]
        ring
    · simp only [hDd]
      refine nine_square _ d1 d2 (fun s φ => ?_) CPintheDark.order a θ φ
      simp [Fin.sum_univ_succ, Singlet.place, CPintheDark.origin]
      ring
  · refine gauge_two g gs (CPintheDark.gauge g gs) x y T _ _
      (fun a b i j => (CPintheDark.C77_cpinthedark_gauge_symmetric _ _ a b i j).1)
      (fun W => CPintheDark.C77_cpinthedark_gauge g gs W _) (a := a) (θ := θ) fun W => ?_
    refine (CPintheDark.C77_cpinthedark_gauge g gs W _).trans ?_
    rw [(dark_phi _ _).1, (dark_phi _ _).2, r1, r2]
    rfl
  · refine darkQuark_charpoly _ hsq _ _ _ hV _ _
      (fun ψ => Yukawa.CPintheDark.C78_cpinthedark_quarks c v ψ _) (a := a) (θ := θ) fun ψ => ?_
    refine (Yukawa.CPintheDark.C78_cpinthedark_quarks c v ψ _).trans ?_
    rw [(dark_phi _ _).1, (dark_phi _ _).1, r1]
  · refine lepton_charpoly _ hsl _ _ _
      (fun ψ => Yukawa.CPintheDark.C78_cpinthedark_leptons c v ψ _) (a := a) (θ := θ) fun ψ => ?_
    refine (Yukawa.CPintheDark.C78_cpinthedark_leptons c v ψ _).trans ?_
    rw [(dark_phi _ _).1, (dark_phi _ _).1, r1]

end Verif.Invariance
