import Verif.Invariance.Nine

/-!
# CP in the neutral directions of the CP-conserving models
-/

namespace Verif.Invariance

open Verif.Potential Verif.Potential.Spec Verif.Lagrangian Verif.Lagrangian.Spec Verif.Spectrum
  Verif.Yukawa Verif.Debye Matrix
open scoped BigOperators ComplexConjugate

/-! ### Fermions -/

theorem chiral_conj {ι κ : Type} [Fintype ι] [DecidableEq ι] [Fintype κ] [DecidableEq κ]
    (B : Matrix ι κ ℂ) :
    ((chiral (B.map conj)).map conj * chiral (B.map conj)).charpoly =
      ((chiral B).map conj * chiral B).charpoly := by
  have e : chiral (B.map conj) = (chiral B).map conj := by
    ext a b
    rcases a with a | a <;> rcases b with b | b <;> simp [chiral]
  have e' : ((chiral B).map conj).map conj = chiral B := by
    ext a b
    simp
  rw [e, e', charpoly_mul_comm]

/-- The complex conjugate of a doublet. -/
noncomputable def bar (Φ : Fin 2 → ℂ) : Fin 2 → ℂ := fun k => conj (Φ k)

/-- Without charged fields the CKM matrix does not matter. -/
theorem quarkYukawa_neutral (V V' : Matrix (Fin 3) (Fin 3) ℂ) (yu yd : Fin 3 → ℝ) (Φu Φd : Fin 2 → ℂ)
    (hu : Φu 0 = 0) (hd : Φd 0 = 0) (q : Yukawa.Spec.Quarks) :
    Yukawa.Spec.quarkYukawa V yu yd Φu Φd q = Yukawa.Spec.quarkYukawa V' yu yd Φu Φd q := by
  simp [Yukawa.Spec.quarkYukawa, hu, hd]

theorem quarkBlock_conj (yu yd : Fin 3 → ℝ) (Φu Φd : Fin 2 → ℂ) :
    quarkBlock 1 yu yd (bar Φu) (bar Φd) = (quarkBlock 1 yu yd Φu Φd).map conj := by
  ext a b
  rcases a with a | a <;> rcases b with b | b <;>
    simp [quarkBlock, bar, diagonal_apply, Matrix.one_apply] <;> split_ifs <;> simp

theorem leptonBlock_conj (ye : Fin 3 → ℝ) (Φ : Fin 2 → ℂ) :
    leptonBlock ye (bar Φ) = (leptonBlock ye Φ).map conj := by
  ext a b
  rcases b with b | b <;> simp [leptonBlock, bar] <;> split_ifs <;> simp

section

variable {n : Nat} (F : List Nat → ℂ) (hs : ∀ a b k : Nat, F [a, b, k] = F [b, a, k]) (φ φ' : Fin n → ℝ)
  (V : Matrix (Fin 3) (Fin 3) ℂ) (yu yd : Fin 3 → ℝ)
include hs

theorem quark_conj {Φu Φd : Fin 2 → ℂ} (hu : Φu 0 = 0) (hd : Φd 0 = 0)
    (hf : ∀ ψ : Fin 12 → ℂ, form F ψ φ = Yukawa.Spec.quarkYukawa V yu yd Φu Φd (Yukawa.Spec.quarkBasis ψ))
    (hf' : ∀ ψ : Fin 12 → ℂ, form F ψ φ' =
      Yukawa.Spec.quarkYukawa V yu yd (bar Φu) (bar Φd) (Yukawa.Spec.quarkBasis ψ)) :
    (squaredMatrix (m := 12) Lagrangian.zeroTensor F φ').charpoly =
      (squaredMatrix (m := 12) Lagrangian.zeroTensor F φ).charpoly := by
  rw [quark_squared F hs φ 1 yu yd _ _ fun ψ => (hf ψ).trans (quarkYukawa_neutral _ _ _ _ _ _ hu hd _),
    quark_squared F hs φ' 1 yu yd _ _ fun ψ => (hf' ψ).trans
      (quarkYukawa_neutral _ _ _ _ _ _ (by simp [bar, hu]) (by simp [bar, hd]) _),
    charpoly_submatrix, charpoly_submatrix, quarkBlock_conj, chiral_conj]

theorem lepton_conj {Φ : Fin 2 → ℂ}
    (hf : ∀ ψ : Fin 9 → ℂ, form F ψ φ = Yukawa.Spec.leptonYukawa yd Φ (Yukawa.Spec.leptonBasis ψ))
    (hf' : ∀ ψ : Fin 9 → ℂ, form F ψ φ' =
      Yukawa.Spec.leptonYukawa yd (bar Φ) (Yukawa.Spec.leptonBasis ψ)) :
    (squaredMatrix (m := 9) Lagrangian.zeroTensor F φ').charpoly =
      (squaredMatrix (m := 9) Lagrangian.zeroTensor F φ).charpoly := by
  rw [lepton_squared F hs φ yd _ hf, lepton_squared F hs φ' yd _ hf', charpoly_submatrix,
    charpoly_submatrix, leptonBlock_conj, chiral_conj]

end

/-! ### Gauge bosons -/

theorem gauge_conj {n : Nat} (g gs : ℝ) (G : List Nat → ℝ) (x y T : ℝ) (v v' : Fin n → ℝ)
    (hs : ∀ (a b : Fin 4) (i j : Fin n), G [(a : Nat), (b : Nat), (i : Nat), (j : Nat)] =
      G [(b : Nat), (a : Nat), (i : Nat), (j : Nat)]) {p q r s p2 q2 r2 s2 : ℝ}
    (hf : ∀ W : Fin 4 → ℝ, ((1 / 4 * ∑ a : Fin 4, ∑ b : Fin 4, ∑ i : Fin n, ∑ j : Fin n,
        G [(a : Nat), (b : Nat), (i : Nat), (j : Nat)] * (W a * (W b * (v i * v j))) : ℝ) : ℂ) =
      dagger (covariant g gs W (doublet p q r s)) (covariant g gs W (doublet p q r s)) +
      dagger (covariant g gs W (doublet p2 q2 r2 s2)) (covariant g gs W (doublet p2 q2 r2 s2)))
    (hf' : ∀ W : Fin 4 → ℝ, ((1 / 4 * ∑ a : Fin 4, ∑ b : Fin 4, ∑ i : Fin n, ∑ j : Fin n,
        G [(a : Nat), (b : Nat), (i : Nat), (j : Nat)] * (W a * (W b * (v' i * v' j))) : ℝ) : ℂ) =
      dagger (covariant g gs W (doublet p (-q) r (-s))) (covariant g gs W (doublet p (-q) r (-s))) +
      dagger (covariant g gs W (doublet p2 (-q2) r2 (-s2)))
        (covariant g gs W (doublet p2 (-q2) r2 (-s2)))) :
    (gaugeMatrix G (diagonal ![x, x, x, y]) T v').charpoly =
      (gaugeMatrix G (diagonal ![x, x, x, y]) T v).charpoly := by
  have h := gaugeMatrix_two g gs G (diagonal ![x, x, x, y]) v hs _ _ _ _ _ _ _ _ hf
  have h' := gaugeMatrix_two g gs G (diagonal ![x, x, x, y]) v' hs _ _ _ _ _ _ _ _ hf'
  simp only [neg_sq] at h'
  refine (gauge_charpoly g gs G x y T v v' h h' ?_).symm
  ring

/-! ### Scalars -/

/-- The complex conjugation as a linear map. -/
noncomputable def conjugateL : (Fin 8 → ℝ) →ₗ[ℝ] (Fin 8 → ℝ) where
  toFun := TwoDoublets.conjugate
  map_add' x y := by funext k; simp [TwoDoublets.conjugate, mul_add]
  map_smul' r x := by
    funext k
    simp only [TwoDoublets.conjugate, Pi.smul_apply, smul_eq_mul, RingHom.id_apply]
    ring

theorem conjugate_sq (φ : Fin 8 → ℝ) (k : Fin 8) : TwoDoublets.conjugate φ k ^ 2 = φ k ^ 2 := by
  fin_cases k <;> simp [TwoDoublets.conjugate]

theorem phi_conjugate (φ : Fin 8 → ℝ) :
    TwoDoublets.phi1 (TwoDoublets.conjugate φ) = doublet (φ 0) (-φ 1) (φ 4) (-φ 5) ∧
      TwoDoublets.phi2 (TwoDoublets.conjugate φ) = doublet (φ 2) (-φ 3) (φ 6) (-φ 7) := by
  constructor <;> simp [TwoDoublets.phi1, TwoDoublets.phi2, TwoDoublets.conjugate]

theorem phi_bar (φ : Fin 8 → ℝ) :
    TwoDoublets.phi1 (TwoDoublets.conjugate φ) = bar (TwoDoublets.phi1 φ) ∧
      TwoDoublets.phi2 (TwoDoublets.conjugate φ) = bar (TwoDoublets.phi2 φ) :=
  ⟨funext fun k => (TwoDoublets.doublets_conjugate φ k).1,
    funext fun k => (TwoDoublets.doublets_conjugate φ k).2⟩

theorem twoDoublet_conj (u1 u2 m12 l1 l2 l3 l4 l5 : ℝ) (φ : Fin 8 → ℝ) :
    twoDoublet u1 u2 m12 l1 l2 l3 l4 l5 0 (TwoDoublets.phi1 (TwoDoublets.conjugate φ))
        (TwoDoublets.phi2 (TwoDoublets.conjugate φ)) =
      twoDoublet u1 u2 m12 l1 l2 l3 l4 l5 0 (TwoDoublets.phi1 φ) (TwoDoublets.phi2 φ) := by
  rw [(phi_conjugate φ).1, (phi_conjugate φ).2, TwoDoublets.phi1, TwoDoublets.phi2, twoDoublet_real,
    twoDoublet_real]
  congr 1
  simp only [Complex.ofReal_im, Complex.ofReal_re, Complex.zero_re, Complex.zero_im]
  ring

theorem downDoublet_bar (type : Int) (Φ₁ Φ₂ : Fin 2 → ℂ) :
    Yukawa.Spec.downDoublet type (bar Φ₁) (bar Φ₂) = bar (Yukawa.Spec.downDoublet type Φ₁ Φ₂) := by
  unfold Yukawa.Spec.downDoublet
  split_ifs <;> rfl

theorem leptonDoublet_bar (type : Int) (Φ₁ Φ₂ : Fin 2 → ℂ) :
    Yukawa.Spec.leptonDoublet type (bar Φ₁) (bar Φ₂) = bar (Yukawa.Spec.leptonDoublet type Φ₁ Φ₂) := by
  unfold Yukawa.Spec.leptonDoublet
  split_ifs <;> rfl

theorem downDoublet_zero (type : Int) {Φ₁ Φ₂ : Fin 2 → ℂ} (h1 : Φ₁ 0 = 0) (h2 : Φ₂ 0 = 0) :
    Yukawa.Spec.downDoublet type Φ₁ Φ₂ 0 = 0 := by
  unfold Yukawa.Spec.downDoublet
  split_ifs <;> assumption

theorem phi_neutral {φ : Fin 8 → ℝ} (h : ∀ k : Fin 8, (k : Nat) < 4 → φ k = 0) :
    TwoDoublets.phi1 φ 0 = 0 ∧ TwoDoublets.phi2 φ 0 = 0 := by
  constructor <;>
    simp [TwoDoublets.phi1, TwoDoublets.phi2, doublet, h 0 (by decide), h 1 (by decide),
      h 2 (by decide), h 3 (by decide)]

/-! ### R2HDM -/

theorem r2hdm_cp {S : Solver} (hS : S.Correct) (p : R2HDM.Par ℝ) (g gs : ℝ) (c : Constants)
    (hV : c.ckm ∈ unitaryGroup (Fin 3) ℂ) (cosBeta sinBeta : ℝ) (type : Int)
    (ht : TwoHDM.Documented type) (force : Bool) (D : Matrix (Fin 4) (Fin 4) ℝ)
    (hD : ∃ x y, D = diagonal ![x, x, x, y]) (scale : ℝ) (JB JF : Thermal) (T : ℝ) :
    TwoDoublets.CPInvariant fun φ =>
      v1Loop ((r2hdmTensors p g gs c cosBeta sinBeta type force D).spectra S scale JB JF) φ T 0 := by
  have hE := r2hdm_equal p g gs c hV cosBeta sinBeta type ht force D
  obtain ⟨x, y, rfl⟩ := hD
  intro φ hφ
  obtain ⟨b1, b2⟩ := phi_bar φ
  obtain ⟨n1, n2⟩ := phi_neutral hφ
  have hsq := fun a b k =>
    (TwoHDM.C78_2hdm_symmetric c (c.vev0 * cosBeta) (c.vev0 * sinBeta) type a b k).1
  have hsl := fun a b k =>
    (TwoHDM.C78_2hdm_symmetric c (c.vev0 * cosBeta) (c.vev0 * sinBeta) type a b k).2
  refine loop_invariant hS _ hsq hsl scale JB JF _ _ T (fun T => ?_) (fun T => ?_) ?_ ?_
  · refine scalar_invariant _ (R2HDM.C80_r2hdm_tree_symmetric p) conjugateL (fun φ => ?_)
      (fun φ => ?_) _ hE.1 (fun φ => ?_) φ T
    · show polynomial _ (TwoDoublets.conjugate φ) = _
      rw [tree_polynomial _ (R2HDM.C74_r2hdm_potential p _ (fun _ => 0) true),
        tree_polynomial _ (R2HDM.C74_r2hdm_potential p _ (fun _ => 0) true), twoDoublet_conj]
    · exact Finset.sum_congr rfl fun k _ => conjugate_sq φ k
    · exact Finset.sum_congr rfl fun k _ => congrArg₂ (· * ·) rfl (conjugate_sq φ k)
  · refine gauge_conj g gs (R2HDM.gauge g gs) x y T _ _
      (fun a b i j => (R2HDM.C77_r2hdm_gauge_symmetric _ _ a b i j).1)
      (fun W => R2HDM.C77_r2hdm_gauge g gs W φ) fun W => ?_
    refine (R2HDM.C77_r2hdm_gauge g gs W _).trans ?_
    rw [(phi_conjugate φ).1, (phi_conjugate φ).2]
  · refine quark_conj _ hsq _ _ _ _ _ n2 (downDoublet_zero type n1 n2)
      (fun ψ => TwoHDM.C78_2hdm_quarks c _ _ type ht ψ _) fun ψ => ?_
    refine (TwoHDM.C78_2hdm_quarks c _ _ type ht ψ _).trans ?_
    rw [b1, b2, downDoublet_bar]
  · refine lepton_conj _ hsl _ _ _
      (fun ψ => TwoHDM.C78_2hdm_leptons c _ _ type ht ψ _) fun ψ => ?_
    refine (TwoHDM.C78_2hdm_leptons c _ _ type ht ψ _).trans ?_
    rw [b1, b2, leptonDoublet_bar]

/-! ### N2HDM -/

/-- The complex conjugation of the nine fields. -/
noncomputable def conjugateNineL : (Fin 9 → ℝ) →ₗ[ℝ] (Fin 9 → ℝ) where
  toFun φ k := ![1, 1, -1, -1, -1, -1, 1, 1, 1] k * φ k
  map_add' x y := by funext k; simp [mul_add]
  map_smul' r x := by
    funext k
    simp only [Pi.smul_apply, smul_eq_mul, RingHom.id_apply]
    ring

theorem conjugateNine_place (s : ℝ) (φ : Fin 8 → ℝ) :
    conjugateNineL (Singlet.place N2HDM.origin s φ) =
      Singlet.place N2HDM.origin s (TwoDoublets.conjugate φ) := by
  funext k
  fin_cases k <;> simp [conjugateNineL, Singlet.place, N2HDM.origin, TwoDoublets.conjugate]

theorem conjugateNine_sq (φ : Fin 9 → ℝ) (k : Fin 9) : conjugateNineL φ k ^ 2 = φ k ^ 2 := by
  fin_cases k <;> simp [conjugateNineL]

theorem n2hdm_documented_conj (u1 u2 m12 l1 l2 l3 l4 l5 us l6 l7 l8 s : ℝ) (φ : Fin 8 → ℝ) :
    N2HDM.documented u1 u2 m12 l1 l2 l3 l4 l5 us l6 l7 l8
        (Singlet.place N2HDM.origin s (TwoDoublets.conjugate φ)) =
      N2HDM.documented u1 u2 m12 l1 l2 l3 l4 l5 us l6 l7 l8 (Singlet.place N2HDM.origin s φ) := by
  have h11 : dagger (TwoDoublets.phi1 (TwoDoublets.conjugate φ))
      (TwoDoublets.phi1 (TwoDoublets.conjugate φ)) =
      dagger (TwoDoublets.phi1 φ) (TwoDoublets.phi1 φ) := by
    rw [(phi_conjugate φ).1, TwoDoublets.phi1, dagger_doublet, dagger_doublet]
    push_cast
    ring
  have h22 : dagger (TwoDoublets.phi2 (TwoDoublets.conjugate φ))
      (TwoDoublets.phi2 (TwoDoublets.conjugate φ)) =
      dagger (TwoDoublets.phi2 φ) (TwoDoublets.phi2 φ) := by
    rw [(phi_conjugate φ).2, TwoDoublets.phi2, dagger_doublet, dagger_doublet]
    push_cast
    ring
  simp only [N2HDM.documented, n2hdm_phi, twoDoublet_conj, h11, h22]
  rfl

set_option maxRecDepth 4000 in
theorem n2hdm_cp {S : Solver} (hS : S.Correct) (p : N2HDM.Par ℝ) (g gs : ℝ) (c : Constants)
    (hV : c.ckm ∈ unitaryGroup (Fin 3) ℂ) (cosBeta sinBeta : ℝ) (type : Int)
    (ht : TwoHDM.Documented type) (force : Bool) (D : Matrix (Fin 4) (Fin 4) ℝ)
    (hD : ∃ x y, D = diagonal ![x, x, x, y]) (scale : ℝ) (JB JF : Thermal) (T : ℝ) :
    Singlet.CPInvariant N2HDM.origin fun φ =>
      v1Loop ((n2hdmTensors p g gs c cosBeta sinBeta type force D).spectra S scale JB JF) φ T 0 := by
  obtain ⟨hD0, -⟩ := n2hdm_equal p g gs c hV cosBeta sinBeta type ht force D
  obtain ⟨x, y, rfl⟩ := hD
  intro s φ hφ
  obtain ⟨b1, b2⟩ := phi_bar φ
  obtain ⟨n1, n2⟩ := phi_neutral hφ
  have hsq := fun a b k =>
    (TwoHDM.C78_n2hdm_symmetric c (c.vev0 * cosBeta) (c.vev0 * sinBeta) type a b k).1
  have hsl := fun a b k =>
    (TwoHDM.C78_n2hdm_symmetric c (c.vev0 * cosBeta) (c.vev0 * sinBeta) type a b k).2
  refine loop_invariant hS _ hsq hsl scale JB JF _ _ T (fun T => ?_) (fun T => ?_) ?_ ?_
  · rw [← conjugateNine_place]
    refine scalar_invariant _ (N2HDM.C80_n2hdm_tree_symmetric p) conjugateNineL
      (forall_place N2HDM.order fun s φ => ?_) (fun φ => ?_) _ hD0 (fun φ => ?_) _ T
    · rw [conjugateNine_place]
      show polynomial (N2HDM.tree p) _ = polynomial (N2HDM.tree p) _
      rw [tree_polynomial _ (N2HDM.C74_n2hdm_potential p _ (fun _ => 0) true),
        tree_polynomial _ (N2HDM.C74_n2hdm_potential p _ (fun _ => 0) true), n2hdm_documented_conj]
    · exact Finset.sum_congr rfl fun k _ => conjugateNine_sq φ k
    · exact Finset.sum_congr rfl fun k _ => congrArg₂ (· * ·) rfl (conjugateNine_sq φ k)
  · refine gauge_conj g gs (N2HDM.gauge g gs) x y T _ _
      (fun a b i j => (N2HDM.C77_n2hdm_gauge_symmetric _ _ a b i j).1)
      (fun W => N2HDM.C77_n2hdm_gauge g gs W _) fun W => ?_
    refine (N2HDM.C77_n2hdm_gauge g gs W _).trans ?_
    rw [(n2hdm_phi _ _).1, (n2hdm_phi _ _).2, (phi_conjugate φ).1, (phi_conjugate φ).2]
    rfl
  · refine quark_conj _ hsq _ _ _ _ _ n2 (downDoublet_zero type n1 n2)
      (fun ψ => TwoHDM.C78_n2hdm_quarks c _ _ type ht ψ _) fun ψ => ?_
    refine (TwoHDM.C78_n2hdm_quarks c _ _ type ht ψ _).trans ?_
    rw [(n2hdm_phi _ _).1, (n2hdm_phi _ _).2, b1, b2, downDoublet_bar]
  · refine lepton_conj _ hsl _ _ _
      (fun ψ => TwoHDM.C78_n2hdm_leptons c _ _ type ht ψ _) fun ψ => ?_
    refine (TwoHDM.C78_n2hdm_leptons c _ _ type ht ψ _).trans ?_
    rw [(n2hdm_phi _ _).1, (n2hdm_phi _ _).2, (n2hdm_phi _ _).1, (n2hdm_phi _ _).2, b1, b2,
      leptonDoublet_bar]

end Verif.Invariance
