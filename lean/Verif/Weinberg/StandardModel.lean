import Verif.Weinberg.Renormalised

/-!
# The vacuum of the standard model (C83)

The masses at the vacuum are those of C79, so the conditions on the spectrum are conditions on the input
masses.
-/

set_option linter.unusedSimpArgs false

namespace Verif.Weinberg

open Verif.Potential Verif.Invariance Verif.Yukawa Verif.Lagrangian Verif.Lagrangian.Spec Verif.Debye Matrix
open Verif.Spectrum
open Polynomial (X C)
open Spec (Regular Apart Clean Lawful Uncut)
open scoped BigOperators

/-! ### Diagonal matrices -/

theorem roots_of_diag {𝕜 : Type} [Field 𝕜] {m : Nat} (d : Fin m → 𝕜) :
    (diagonal d).charpoly.roots = Finset.univ.val.map d := by
  rw [charpoly_diagonal, ← Polynomial.roots_multiset_prod_X_sub_C (Finset.univ.val.map d), Multiset.map_map]
  rfl

theorem roots_diagonal {𝕜 : Type} [Field 𝕜] {m : Nat} (d : Fin m → 𝕜) {z : 𝕜}
    (h : z ∈ (diagonal d).charpoly.roots) : ∃ i, z = d i := by
  rw [roots_of_diag] at h
  obtain ⟨i, -, hi⟩ := Multiset.mem_map.1 h
  exact ⟨i, hi.symm⟩

/-- The solver may return unit vectors for diagonal matrices. -/
theorem diag_sorted_diagonal {𝕜 : Type} [RCLike 𝕜] {m : Nat} (d : Fin m → ℝ) :
    Diag (diagonal fun i => (d i : 𝕜)) (of fun i j => if i = Tuple.sort d j then (1 : 𝕜) else 0)
      (d ∘ Tuple.sort d) := by
  set σ := Tuple.sort d
  refine ⟨?_, ?_, ?_⟩
  · ext i j
    rw [Matrix.mul_apply]
    simp only [star_apply, of_apply, one_apply]
    rw [Finset.sum_eq_single (σ i)]
    · simp [σ.injective.eq_iff]
    · intro b _ hb
      simp [hb]
    · simp
  · ext i j
    rw [Matrix.mul_apply]
    simp only [star_apply, of_apply, one_apply]
    rw [Finset.sum_eq_single (σ.symm i)]
    · simp [eq_comm]
    · intro b _ hb
      rw [if_neg (fun h => hb (by rw [h, Equiv.symm_apply_apply])), zero_mul]
    · simp
  · ext i j
    rw [Matrix.mul_apply]
    simp only [mul_diagonal, star_apply, of_apply]
    rw [Finset.sum_eq_single (σ.symm i)]
    · by_cases h : i = j
      · subst h
        simp
      · simp [h, Ne.symm h]
    · intro b _ hb
      rw [if_neg (fun h => hb (by rw [h, Equiv.symm_apply_apply])), zero_mul, zero_mul]
    · simp

/-- There are eigenvectors which are unit vectors for diagonal matrices. -/
theorem vectors_diagonal {S : Solver} (hS : S.Correct) : ∃ X : Vectors, X.Correct S ∧
    (∀ {m : Nat} (d : Fin m → ℝ) (i j : Fin m), X.real (diagonal d) i j = 0 ∨ X.real (diagonal d) i j = 1) ∧
    ∀ {m : Nat} (d : Fin m → ℝ) (i j : Fin m), X.complex (diagonal fun i => (d i : ℂ)) i j = 0 ∨
      X.complex (diagonal fun i => (d i : ℂ)) i j = 1 := by
  classical
  obtain ⟨X, hX⟩ := vectors_exist hS
  let r : ∀ {k : Nat}, Matrix (Fin k) (Fin k) ℝ → Matrix (Fin k) (Fin k) ℝ := fun {k} M =>
    if h : ∃ d : Fin k → ℝ, M = diagonal d then
      of fun i j => if i = Tuple.sort h.choose j then 1 else 0 else X.real M
  let c : ∀ {k : Nat}, Matrix (Fin k) (Fin k) ℂ → Matrix (Fin k) (Fin k) ℂ := fun {k} M =>
    if h : ∃ d : Fin k → ℝ, M = diagonal fun i => (d i : ℂ) then
      of fun i j => if i = Tuple.sort h.choose j then 1 else 0 else X.complex M
  refine ⟨⟨r, c⟩, ⟨fun {k} M hM => ?_, fun {k} M hM => ?_⟩, fun {m} d i j => ?_, fun {m} d i j => ?_⟩
  · show Diag M (r M) _
    by_cases h : ∃ d : Fin k → ℝ, M = diagonal d
    · have e : (fun i : Fin k => nth (S.real M) i) = h.choose ∘ Tuple.sort h.choose := funext fun i => by
        refine sorted_list _ _ (hS.real M hM).1 ?_ i
        rw [(hS.real M hM).2]
        conv_lhs => rw [h.choose_spec]
        exact roots_of_diag _
      have := diag_sorted_diagonal (𝕜 := ℝ) h.choose
      rw [e]
      simp only [r, dif_pos h]
      have e2 : M = diagonal fun i => ((h.choose i : ℝ) : ℝ) := h.choose_spec
      convert this using 1
      exact e2
    · simp only [r, dif_neg h]
      exact hX.real M hM
  · show Diag M (c M) _
    by_cases h : ∃ d : Fin k → ℝ, M = diagonal fun i => (d i : ℂ)
    · have e : (fun i : Fin k => nth (S.complex M) i) = h.choose ∘ Tuple.sort h.choose := funext fun i => by
        refine sorted_list _ _ (hS.complex M hM).1 ?_ i
        refine Multiset.map_injective Complex.ofReal_injective ?_
        rw [Multiset.map_coe, (hS.complex M hM).2]
        conv_lhs => rw [h.choose_spec]
        rw [roots_of_diag, Multiset.map_map]
        rfl
      have := diag_sorted_diagonal (𝕜 := ℂ) h.choose
      rw [e]
      simp only [c, dif_pos h]
      have e2 : M = diagonal fun i => ((h.choose i : ℝ) : ℂ) := h.choose_spec
      convert this using 1
      exact e2
    · simp only [c, dif_neg h]
      exact hX.complex M hM
  · show r (diagonal d) i j = 0 ∨ r (diagonal d) i j = 1
    simp only [r, dif_pos (⟨d, rfl⟩ : ∃ d' : Fin m → ℝ, diagonal d = diagonal d'), of_apply]
    split_ifs <;> simp
  · show c (diagonal fun i => (d i : ℂ)) i j = 0 ∨ c (diagonal fun i => (d i : ℂ)) i j = 1
    simp only [c, dif_pos (⟨d, rfl⟩ : ∃ d' : Fin m → ℝ, (diagonal fun i => (d i : ℂ)) =
      diagonal fun i => (d' i : ℂ)), of_apply]
    split_ifs <;> simp

/-! ### The mass matrices at the vacuum -/

theorem sm_scalarMatrix (mh v : ℝ) (hv : v ≠ 0) :
    Spec.scalarMatrix (SM.tree (SM.setGen mh v)) (SM.vevTree v) =
      diagonal fun i : Fin 4 => if i = 2 then mh ^ 2 else 0 := by
  rw [← massHiggs_eq]
  ext i j
  have h : massHiggs (SM.tree (SM.setGen mh v)) (SM.vevTree v) i j =
      hessianCT (SM.tree (SM.setGen mh v)) (SM.vevTree v) i j := rfl
  rw [h, SM.tree_hess, diagonal_apply]
  simp only [SM.setGen]
  split_ifs <;> field_simp <;> ring

theorem fermionMatrix_eq (m : Nat) {n : Nat} (F : List Nat → ℂ) (hF : Spec.FermionSymmetric m n F) (v : Fin n → ℝ) :
    (Spec.fermionMatrix m F v).conjTranspose * Spec.fermionMatrix m F v =
      squaredMatrix zeroTensor F v := (massFermion_eq m F hF v).symm

theorem sm_gaugeMatrix (x : Numbers) (hG : 0 < x.GF) (hZ : x.mW ^ 2 ≤ x.mZ ^ 2) {y : ℝ}
    (h : y ∈ (Spec.gaugeMatrix (SM.gauge (getSMConstants x).g (getSMConstants x).gs)
      (SM.vevTree (getSMConstants x).vev0)).charpoly.roots) : y = 0 ∨ y = x.mW ^ 2 ∨ y = x.mZ ^ 2 := by
  have hs := (sm_lawful (SM.setGen 1 1) (getSMConstants x).g (getSMConstants x).gs (getSMConstants x) 1 false
    0).gauge
  have e : Spec.gaugeMatrix (SM.gauge (getSMConstants x).g (getSMConstants x).gs)
      (SM.vevTree (getSMConstants x).vev0) =
      Spectrum.gaugeMatrix (SM.gauge (getSMConstants x).g (getSMConstants x).gs) 0 0
      (SM.vevTree (getSMConstants x).vev0) := by
    rw [← massGauge_eq]
    have hm : (massGauge (SM.gauge (getSMConstants x).g (getSMConstants x).gs)
        (SM.vevTree (getSMConstants x).vev0)).IsHermitian := hermitian_gauge _ hs _
    have hu : ∀ a b, Spectrum.gaugeEntry (SM.gauge (getSMConstants x).g (getSMConstants x).gs) 0 0
        (SM.vevTree (getSMConstants x).vev0) a b =
        massGauge (SM.gauge (getSMConstants x).g (getSMConstants x).gs)
        (SM.vevTree (getSMConstants x).vev0) a b := fun a b => by
      unfold Spectrum.gaugeEntry massGauge
      simp
    ext a b
    rw [Spectrum.gaugeMatrix]
    split_ifs
    · rw [hu, ← hm.apply, star_trivial]
    · exact (hu a b).symm
  rw [e, C79_sm_gauge x hG hZ 0] at h
  have h0 := Polynomial.isRoot_of_mem_roots h
  simp only [Yukawa.Spec.gaugeSpectrum, Polynomial.IsRoot, Polynomial.eval_mul, Polynomial.eval_pow,
    Polynomial.eval_sub, Polynomial.eval_X, Polynomial.eval_C, mul_eq_zero, pow_eq_zero_iff,
    ne_eq, OfNat.ofNat_ne_zero, not_false_eq_true, sub_eq_zero] at h0
  tauto

/-- The tensors of the standard model with the parameters of `set_gen` and the constants of the program. -/
noncomputable def sm (x : Numbers) (mh : ℝ) (force : Bool) (D : Matrix (Fin 4) (Fin 4) ℝ) : Tensors 4 :=
  smTensors (SM.setGen mh (getSMConstants x).vev0) (getSMConstants x).g (getSMConstants x).gs
    (getSMConstants x) (getSMConstants x).vev0 force D

/-- The vacuum of the input. -/
noncomputable def smVacuum (x : Numbers) : Fin 4 → ℝ := SM.vevTree (getSMConstants x).vev0

section

variable (x : Numbers) (mh : ℝ) (force : Bool) (D : Matrix (Fin 4) (Fin 4) ℝ) (hG : 0 < x.GF)
  (hZ : x.mW ^ 2 ≤ x.mZ ^ 2)
include hG hZ

theorem sm_quarks : (Spec.fermionMatrix 12 (sm x mh force D).quark (smVacuum x)).conjTranspose *
    Spec.fermionMatrix 12 (sm x mh force D).quark (smVacuum x) = diagonal fun i => (((Yukawa.Spec.quarkMasses
      ![x.mUp, x.mCharm, x.mTop] ![x.mDown, x.mStrange, x.mBottom] i) ^ 2 : ℝ) : ℂ) := by
  refine (fermionMatrix_eq 12 _ (sm_lawful _ _ _ _ _ force D).quark _).trans ?_
  exact (C79_sm_fermions (getSMConstants x) _ (C79_constants x hG hZ).1.ne').1

theorem sm_leptons : (Spec.fermionMatrix 9 (sm x mh force D).lepton (smVacuum x)).conjTranspose *
    Spec.fermionMatrix 9 (sm x mh force D).lepton (smVacuum x) = diagonal fun i => (((Yukawa.Spec.leptonMasses
      ![x.mElectron, x.mMu, x.mTau] i) ^ 2 : ℝ) : ℂ) := by
  refine (fermionMatrix_eq 9 _ (sm_lawful _ _ _ _ _ force D).lepton _).trans ?_
  exact (C79_sm_fermions (getSMConstants x) _ (C79_constants x hG hZ).1.ne').2

theorem sm_scalars : Spec.scalarMatrix (sm x mh force D).scalar (smVacuum x) =
    diagonal fun i : Fin 4 => if i = 2 then mh ^ 2 else 0 :=
  sm_scalarMatrix mh _ (C79_constants x hG hZ).1.ne'

/-- **The spectrum of the standard model.**  The conditions on the masses are conditions on the inputs. -/
theorem sm_regular {t : ℝ} (hh : t < mh ^ 2 ∧ 1 / 10 ^ 5 ≤ mh ^ 2)
    (hW : t < x.mW ^ 2 ∧ 1 / 10 ^ 5 ≤ x.mW ^ 2)
    (hq : ∀ m ∈ [x.mUp, x.mCharm, x.mTop, x.mDown, x.mStrange, x.mBottom, x.mElectron, x.mMu, x.mTau],
      m = 0 ∨ t < m ^ 2) : Regular t (sm x mh force D) (smVacuum x) where
  scalar y hy := by
    rw [sm_scalars x mh force D hG hZ] at hy
    obtain ⟨i, rfl⟩ := roots_diagonal _ hy
    split_ifs
    · exact Or.inr hh
    · exact Or.inl rfl
  gauge y hy := by
    rcases sm_gaugeMatrix x hG hZ hy with h | h | h
    · exact Or.inl h
    · exact Or.inr (h ▸ hW)
    · exact Or.inr (h ▸ ⟨hW.1.trans_le hZ, hW.2.trans hZ⟩)
  quark z hz := by
    rw [sm_quarks x mh force D hG hZ] at hz
    obtain ⟨i, rfl⟩ := roots_diagonal _ hz
    have h : ∀ m, m = 0 ∨ t < m ^ 2 → ((m ^ 2 : ℝ) : ℂ) = 0 ∨ t < ((m ^ 2 : ℝ) : ℂ).re := fun m h =>
      h.imp (fun h => by simp [h]) fun h => by rwa [Complex.ofReal_re]
    fin_cases i <;> refine h _ (hq _ ?_) <;> simp [Yukawa.Spec.quarkMasses]
  lepton z hz := by
    rw [sm_leptons x mh force D hG hZ] at hz
    obtain ⟨i, rfl⟩ := roots_diagonal _ hz
    have h : ∀ m, m = 0 ∨ t < m ^ 2 → ((m ^ 2 : ℝ) : ℂ) = 0 ∨ t < ((m ^ 2 : ℝ) : ℂ).re := fun m h =>
      h.imp (fun h => by simp [h]) fun h => by rwa [Complex.ofReal_re]
    fin_cases i <;> first
      | exact h _ (Or.inl rfl)
      | (refine h _ (hq _ ?_); simp [Yukawa.Spec.leptonMasses])

/-- The eigenvectors of the standard model are unit vectors. -/
theorem sm_clean {X : Vectors}
    (h1 : ∀ {m : Nat} (d : Fin m → ℝ) (i j : Fin m), X.real (diagonal d) i j = 0 ∨ X.real (diagonal d) i j = 1)
    (h2 : ∀ {m : Nat} (d : Fin m → ℝ) (i j : Fin m), X.complex (diagonal fun i => (d i : ℂ)) i j = 0 ∨
      X.complex (diagonal fun i => (d i : ℂ)) i j = 1) : Clean X (sm x mh force D) (smVacuum x) where
  scalar i j := by
    rw [sm_scalars x mh force D hG hZ]
    refine (h1 _ i j).imp id fun h => ?_
    rw [h]
    norm_num
  quark i j := by
    rw [sm_quarks x mh force D hG hZ]
    rcases h2 (fun i => (Yukawa.Spec.quarkMasses ![x.mUp, x.mCharm, x.mTop]
      ![x.mDown, x.mStrange, x.mBottom] i) ^ 2) i j with h | h <;> rw [h] <;> simp
  lepton i j := by
    rw [sm_leptons x mh force D hG hZ]
    rcases h2 (fun i => (Yukawa.Spec.leptonMasses ![x.mElectron, x.mMu, x.mTau] i) ^ 2) i j with h | h <;>
      rw [h] <;> simp

/-- The conditions on the differences. -/
theorem sm_apart (hh : 1 / 10 ^ 5 < mh ^ 2) (hW : 1 / 10 ^ 5 < x.mW ^ 2)
    (hWZ : x.mW ^ 2 + 1 / 10 ^ 5 < x.mZ ^ 2)
    (hq : ∀ m ∈ [x.mUp, x.mCharm, x.mTop, x.mDown, x.mStrange, x.mBottom],
      ∀ m' ∈ [x.mUp, x.mCharm, x.mTop, x.mDown, x.mStrange, x.mBottom],
        m ^ 2 = m' ^ 2 ∨ 1 / 10 ^ 5 < |m ^ 2 - m' ^ 2|)
    (hl : ∀ m ∈ [0, x.mElectron, x.mMu, x.mTau], ∀ m' ∈ [0, x.mElectron, x.mMu, x.mTau],
        m ^ 2 = m' ^ 2 ∨ 1 / 10 ^ 5 < |m ^ 2 - m' ^ 2|) : Apart (sm x mh force D) (smVacuum x) where
  scalar y hy z hz := by
    rw [sm_scalars x mh force D hG hZ] at hy hz
    obtain ⟨i, rfl⟩ := roots_diagonal _ hy
    obtain ⟨j, rfl⟩ := roots_diagonal _ hz
    split_ifs
    · exact Or.inl rfl
    · rw [sub_zero, abs_of_nonneg (sq_nonneg _)]
      exact Or.inr hh
    · rw [zero_sub, abs_neg, abs_of_nonneg (sq_nonneg _)]
      exact Or.inr hh
    · exact Or.inl rfl
  gauge y hy z hz := by
    have hp : (0 : ℝ) < 1 / 10 ^ 5 := by norm_num
    rcases sm_gaugeMatrix x hG hZ hy with rfl | rfl | rfl <;>
    rcases sm_gaugeMatrix x hG hZ hz with rfl | rfl | rfl <;>
    first
      | exact Or.inl rfl
      | exact Or.inr (lt_abs.2 (Or.inl (by linarith)))
      | exact Or.inr (lt_abs.2 (Or.inr (by linarith)))
  quark y hy z hz := by
    rw [sm_quarks x mh force D hG hZ] at hy hz
    obtain ⟨i, rfl⟩ := roots_diagonal _ hy
    obtain ⟨j, rfl⟩ := roots_diagonal _ hz
    have key : ∀ i, Yukawa.Spec.quarkMasses ![x.mUp, x.mCharm, x.mTop] ![x.mDown, x.mStrange, x.mBottom] i ∈
        [x.mUp, x.mCharm, x.mTop, x.mDown, x.mStrange, x.mBottom] := fun i => by
      fin_cases i <;> simp [Yukawa.Spec.quarkMasses]
    rcases hq _ (key i) _ (key j) with h | h
    · exact Or.inl (congrArg _ h)
    · rw [← Complex.ofReal_sub, Complex.norm_real, Real.norm_eq_abs]
      exact Or.inr h
  lepton y hy z hz := by
    rw [sm_leptons x mh force D hG hZ] at hy hz
    obtain ⟨i, rfl⟩ := roots_diagonal _ hy
    obtain ⟨j, rfl⟩ := roots_diagonal _ hz
    have key : ∀ i, Yukawa.Spec.leptonMasses ![x.mElectron, x.mMu, x.mTau] i ∈
        [0, x.mElectron, x.mMu, x.mTau] := fun i => by
      fin_cases i <;> simp [Yukawa.Spec.leptonMasses]
    rcases hl _ (key i) _ (key j) with h | h
    · exact Or.inl (congrArg _ h)
    · rw [← Complex.ofReal_sub, Complex.norm_real, Real.norm_eq_abs]
      exact Or.inr h

end

/-- **The standard model with the constants of the program.**  For every Higgs mass above `10⁻²` the first
derivatives are the gradient of the Coleman-Weinberg potential with all particles of the standard model; the
electron is above the threshold `10⁻⁷`. -/
theorem C83_sm_first {S : Solver} {X : Vectors} (hS : S.Correct) (hX : X.Correct S) (mh : ℝ)
    (hh : 1 / 10 ^ 4 < mh ^ 2) (force : Bool) (D : Matrix (Fin 4) (Fin 4) ℝ) {scale : ℝ} (hs : 0 < scale)
    (hc : Clean X (sm numbers mh force D) (smVacuum numbers)) :
    ∃ N H, Expansion (Spec.potential (1 / 10 ^ 7) scale (sm numbers mh force D)) (smVacuum numbers) N H ∧
      weinbergFirst (some (physicalCouplings S X (sm numbers mh force D) (smVacuum numbers))) scale =
        .ok fun k => .fin (if |N k| < 1 / 10 ^ 10 then 0 else N k) := by
  refine C83_first hS hX (sm_lawful _ _ _ _ _ force D) (by norm_num) hs
    (sm_regular numbers mh force D (by unfold numbers; norm_num) (by unfold numbers; norm_num)
      ⟨lt_of_le_of_lt (by norm_num) hh, le_trans (by norm_num) hh.le⟩ (by unfold numbers; norm_num) ?_) hc
  unfold numbers
  simp only [List.forall_mem_cons, List.forall_mem_nil]
  norm_num

/-- There are such eigenvectors. -/
example : ∃ (S : Solver) (X : Vectors), S.Correct ∧ X.Correct S ∧
    Clean X (sm numbers 125 false 0) (smVacuum numbers) := by
  obtain ⟨S, hS⟩ := solver_exists
  obtain ⟨X, hX, h1, h2⟩ := vectors_diagonal hS
  exact ⟨S, X, hS, hX, sm_clean numbers 125 false 0 (by unfold numbers; norm_num)
    (by unfold numbers; norm_num) h1 h2⟩

/-- With an electron mass of 20 MeV all conditions on the masses are met, also those for the second
derivatives and for the comparison with `V1Loop`. -/
example : Regular (1 / 10 ^ 4) (sm { numbers with mElectron := 0.02 } 125 false 0)
      (smVacuum { numbers with mElectron := 0.02 }) ∧
    Apart (sm { numbers with mElectron := 0.02 } 125 false 0) (smVacuum { numbers with mElectron := 0.02 }) := by
  constructor
  · refine sm_regular _ 125 false 0 (by unfold numbers; norm_num) (by unfold numbers; norm_num) (by norm_num)
      (by unfold numbers; norm_num) ?_
    unfold numbers
    simp only [List.forall_mem_cons, List.forall_mem_nil]
    norm_num
  · refine sm_apart _ 125 false 0 (by unfold numbers; norm_num) (by unfold numbers; norm_num) (by norm_num)
      (by unfold numbers; norm_num) (by unfold numbers; norm_num) ?_ ?_ <;>
    unfold numbers <;>
    simp only [List.forall_mem_cons, List.forall_mem_nil] <;>
    norm_num [abs_of_neg, abs_of_pos]

end Verif.Weinberg
