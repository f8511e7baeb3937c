import Verif.Baryo.Phases
import Verif.Baryo.AlignProps
import Verif.Yukawa.Masses
import Verif.Yukawa.TwoHDMProps
import Verif.Yukawa.SM
import Verif.Yukawa.CxSM
import Verif.Yukawa.CPintheDark
import Mathlib.Tactic.Positivity

/-!
# C137: the CP-violating phases are those of the masses
-/

set_option linter.unusedSectionVars false
set_option linter.unusedSimpArgs false
set_option linter.unusedVariables false

namespace Verif.Baryo.Phases

open Outcome Align Matrix Polynomial
open Verif.Yukawa (chiral quarkBlock leptonBlock massMatrix form)
open scoped ComplexConjugate BigOperators

/-! ## Specification -/

/-- A library function that gives the eigenvalues with their multiplicities, in any order. -/
def IsEigen {m : Nat} (eigen : Matrix (Fin m) (Fin m) ℂ → List ℂ) : Prop :=
  ∀ M, ((eigen M : List ℂ) : Multiset ℂ) = M.charpoly.roots

/-- Each mass with both signs. -/
def bothSigns {ι : Type} [Fintype ι] (d : ι → ℂ) : Multiset ℂ :=
  Finset.univ.val.map d + Finset.univ.val.map fun i => -d i

/-- `θ` is the phase of `m` up to the sign of `m`. -/
def IsPhase (m : ℂ) (θ : ℝ) : Prop :=
  |θ| ≤ Real.pi / 2 ∧ (m = ‖m‖ * Complex.exp (θ * Complex.I) ∨ -m = ‖m‖ * Complex.exp (θ * Complex.I))

/-! ## The masses -/

section

variable {ι : Type} [Fintype ι] [DecidableEq ι]

theorem chiral_diagonal_charpoly (d : ι → ℂ) :
    (chiral (diagonal d)).charpoly = ((bothSigns d).map fun a => X - C a).prod := by
  have h2 : (chiral (diagonal d)) =
      fromBlocks 1 1 1 (-1) * (diagonal (Sum.elim d fun i => -d i) *
        fromBlocks (diagonal fun _ => (1 / 2 : ℂ)) (diagonal fun _ => (1 / 2 : ℂ))
          (diagonal fun _ => (1 / 2 : ℂ)) (diagonal fun _ => -(1 / 2 : ℂ))) := by
    rw [← fromBlocks_diagonal, fromBlocks_multiply, fromBlocks_multiply]
    unfold chiral
    congr 1 <;> ext i j <;> rcases eq_or_ne i j with h | h
    all_goals first
      | (subst h; simp [Matrix.one_apply, diagonal_apply]; done)
      | (subst h; simp [Matrix.one_apply, diagonal_apply]; ring)
      | simp [h, h.symm, Matrix.one_apply, diagonal_apply]
  have h3 : fromBlocks (diagonal fun _ : ι => (1 / 2 : ℂ)) (diagonal fun _ => (1 / 2 : ℂ))
      (diagonal fun _ => (1 / 2 : ℂ)) (diagonal fun _ => -(1 / 2 : ℂ)) * fromBlocks 1 1 1 (-1) = 1 := by
    rw [fromBlocks_multiply, ← fromBlocks_one]
    congr 1 <;> ext i j <;> rcases eq_or_ne i j with h | h
    all_goals first
      | (subst h; simp [Matrix.one_apply, diagonal_apply]; done)
      | (subst h; simp [Matrix.one_apply, diagonal_apply]; ring)
      | simp [h, h.symm, Matrix.one_apply, diagonal_apply]
  rw [h2, charpoly_mul_comm, Matrix.mul_assoc, h3, Matrix.mul_one, charpoly_diagonal, Fintype.prod_sum_type]
  unfold bothSigns
  rw [Multiset.map_add, Multiset.prod_add, Multiset.map_map, Multiset.map_map]
  rfl

theorem chiral_diagonal_roots (d : ι → ℂ) : (chiral (diagonal d)).charpoly.roots = bothSigns d := by
  rw [chiral_diagonal_charpoly, roots_multiset_prod_X_sub_C]

end

/-- The masses of the quarks in a neutral vacuum. -/
noncomputable def quarkNumbers (yu yd : Fin 3 → ℝ) (zu zd : ℂ) : Fin 3 ⊕ Fin 3 → ℂ :=
  Sum.elim (fun i => yu i * conj zu) fun i => yd i * zd

theorem quarkBlock_neutral (V : Matrix (Fin 3) (Fin 3) ℂ) (yu yd : Fin 3 → ℝ) (Φu Φd : Fin 2 → ℂ)
    (hu : Φu 0 = 0) (hd : Φd 0 = 0) :
    quarkBlock V yu yd Φu Φd = diagonal (quarkNumbers yu yd (Φu 1) (Φd 1)) := by
  unfold quarkBlock quarkNumbers
  rw [hu, hd, ← fromBlocks_diagonal]
  congr 1 <;> ext i j <;> simp

theorem charpoly_submatrix {m : Nat} {ι : Type} [Fintype ι] [DecidableEq ι] (e : Fin m ≃ ι) (M : Matrix ι ι ℂ) :
    (M.submatrix e e).charpoly = M.charpoly := by
  have := charpoly_reindex e.symm M
  rwa [reindex_apply, Equiv.symm_symm] at this

section

variable {n : Nat} (F : List Nat → ℂ) (hs : ∀ a b k : Nat, F [a, b, k] = F [b, a, k]) (φ : Fin n → ℝ)
include hs

theorem quark_roots (V : Matrix (Fin 3) (Fin 3) ℂ) (yu yd : Fin 3 → ℝ) (Φu Φd : Fin 2 → ℂ)
    (hu : Φu 0 = 0) (hd : Φd 0 = 0)
    (hf : ∀ ψ : Fin 12 → ℂ, form F ψ φ = Yukawa.Spec.quarkYukawa V yu yd Φu Φd (Yukawa.Spec.quarkBasis ψ)) :
    (massMatrix (m := 12) Lagrangian.zeroTensor F φ).charpoly.roots =
      bothSigns (quarkNumbers yu yd (Φu 1) (Φd 1)) := by
  rw [Yukawa.massMatrix_chiral Yukawa.quarkEquiv F hs φ (quarkBlock V yu yd Φu Φd) fun ψ => by
    rw [hf, Yukawa.quark_form V yu yd Φu Φd (fun a => ψ (Yukawa.quarkEquiv.symm a)), Yukawa.quarksOf_basis]]
  rw [charpoly_submatrix, quarkBlock_neutral V yu yd Φu Φd hu hd, chiral_diagonal_roots]

theorem darkQuark_roots (V : Matrix (Fin 3) (Fin 3) ℂ) (yu yd : Fin 3 → ℝ) (Φu Φd : Fin 2 → ℂ)
    (hu : Φu 0 = 0) (hd : Φd 0 = 0)
    (hf : ∀ ψ : Fin 12 → ℂ, form F ψ φ = Yukawa.Spec.quarkYukawa V yu yd Φu Φd (Yukawa.Spec.darkQuarkBasis ψ)) :
    (massMatrix (m := 12) Lagrangian.zeroTensor F φ).charpoly.roots =
      bothSigns (quarkNumbers yu yd (Φu 1) (Φd 1)) := by
  rw [Yukawa.massMatrix_chiral Yukawa.darkQuarkEquiv F hs φ (quarkBlock V yu yd Φu Φd) fun ψ => by
    rw [hf, Yukawa.quark_form V yu yd Φu Φd (fun a => ψ (Yukawa.darkQuarkEquiv.symm a)), Yukawa.quarksOf_darkBasis]]
  rw [charpoly_submatrix, quarkBlock_neutral V yu yd Φu Φd hu hd, chiral_diagonal_roots]

theorem lepton_roots (ye : Fin 3 → ℝ) (Φl : Fin 2 → ℂ) (hl : Φl 0 = 0)
    (hf : ∀ ψ : Fin 9 → ℂ, form F ψ φ = Yukawa.Spec.leptonYukawa ye Φl (Yukawa.Spec.leptonBasis ψ)) :
    (massMatrix (m := 9) Lagrangian.zeroTensor F φ).charpoly.roots =
      bothSigns (fun i => ye i * Φl 1) + Multiset.replicate 3 0 := by
  rw [Yukawa.massMatrix_chiral Yukawa.leptonEquiv F hs φ (leptonBlock ye Φl) fun ψ => by
    rw [hf, Yukawa.lepton_form ye Φl (fun a => ψ (Yukawa.leptonEquiv.symm a)), Yukawa.leptonsOf_basis]]
  rw [charpoly_submatrix]
  have h1 : chiral (leptonBlock ye Φl) = reindex (Equiv.sumAssoc (Fin 3) (Fin 3) (Fin 3))
      (Equiv.sumAssoc (Fin 3) (Fin 3) (Fin 3))
      (fromBlocks (chiral (diagonal fun i => ye i * Φl 1)) 0 0 (diagonal fun _ => 0)) := by
    ext a b
    rcases a with a | a | a <;> rcases b with b | b | b <;>
      simp [chiral, leptonBlock, hl, Equiv.sumAssoc, diagonal_apply, eq_comm]
    all_goals
      split_ifs with h
      · rw [h]
      · rfl
  rw [h1, charpoly_reindex, charpoly_fromBlocks_zero₁₂, chiral_diagonal_charpoly, charpoly_diagonal]
  have h2 : ∏ i : Fin 3, (X - C (0 : ℂ)) = ((Multiset.replicate 3 (0 : ℂ)).map fun a => X - C a).prod := by
    simp
    ring
  rw [h2, ← Multiset.prod_add, ← Multiset.map_add, roots_multiset_prod_X_sub_C]

end

theorem masses_of {m : Nat} (eigen : Matrix (Fin m) (Fin m) ℂ → List ℂ) (he : IsEigen eigen)
    (M : Matrix (Fin m) (Fin m) ℂ) :
    ((complexMasses eigen M : List ℂ) : Multiset ℂ) = M.charpoly.roots.map cut := by
  rw [complexMasses, ← he M, Multiset.map_coe]

/-- The complex masses of the quarks in a vacuum of two doublets that does not break the charge: twelve numbers,
with both signs `m_u / v₂ (ζ₂ - i η₂)` for the up-type quarks, and for the down-type quarks `m_d / v (ζ + i η)`
with the doublet of the type.  Numbers below `1e-10` are replaced by zero. -/
theorem C137_2hdm_quarks (eigen : Matrix (Fin 12) (Fin 12) ℂ → List ℂ) (he : IsEigen eigen)
    (c : Yukawa.Constants) (v1 v2 : ℝ) (type : Int) (ht : Yukawa.TwoHDM.Documented type) (φ : Fin 8 → ℝ)
    (h0 : φ 0 = 0) (h1 : φ 1 = 0) (h2 : φ 2 = 0) (h3 : φ 3 = 0) :
    ((complexMasses eigen (massMatrix Lagrangian.zeroTensor (Yukawa.TwoHDM.quarkTensor c v1 v2 type) φ) :
        List ℂ) : Multiset ℂ) =
      (bothSigns (Sum.elim (fun i => (c.up i / v2 : ℂ) * (φ 6 - φ 7 * Complex.I))
        (fun i => if type = 1 ∨ type = 3 then (c.down i / v2 : ℂ) * (φ 6 + φ 7 * Complex.I)
          else (c.down i / v1 : ℂ) * (φ 4 + φ 5 * Complex.I)))).map cut := by
  rw [masses_of eigen he, quark_roots _ (fun a b k => (Yukawa.TwoHDM.C78_2hdm_symmetric c v1 v2 type a b k).1) φ _ _ _
    _ _ ?_ ?_ fun ψ => Yukawa.TwoHDM.C78_2hdm_quarks c v1 v2 type ht ψ φ]
  · congr 2
    unfold quarkNumbers
    congr 1
    · ext i
      rw [Lagrangian.TwoDoublets.phi2, Lagrangian.Spec.doublet]
      simp only [cons_val_one, cons_val_zero, map_div₀, Complex.conj_ofReal, map_add, map_mul, Complex.conj_I]
      rw [Yukawa.coupling_mul]
      ring
    · ext i
      unfold Yukawa.Spec.downDoublet Yukawa.Spec.downVev
      split_ifs with h
      · rw [Lagrangian.TwoDoublets.phi2, Lagrangian.Spec.doublet]
        simp only [cons_val_one, cons_val_zero]
        rw [Yukawa.coupling_mul]
      · rw [Lagrangian.TwoDoublets.phi1, Lagrangian.Spec.doublet]
        simp only [cons_val_one, cons_val_zero]
        rw [Yukawa.coupling_mul]
  · simp [Lagrangian.TwoDoublets.phi2, Lagrangian.Spec.doublet, h2, h3]
  · unfold Yukawa.Spec.downDoublet
    split_ifs <;>
      simp [Lagrangian.TwoDoublets.phi1, Lagrangian.TwoDoublets.phi2, Lagrangian.Spec.doublet, h0, h1, h2, h3]

/-- The same for the leptons: the charged leptons with both signs and three zeros. -/
theorem C137_2hdm_leptons (eigen : Matrix (Fin 9) (Fin 9) ℂ → List ℂ) (he : IsEigen eigen)
    (c : Yukawa.Constants) (v1 v2 : ℝ) (type : Int) (ht : Yukawa.TwoHDM.Documented type) (φ : Fin 8 → ℝ)
    (h0 : φ 0 = 0) (h1 : φ 1 = 0) (h2 : φ 2 = 0) (h3 : φ 3 = 0) :
    ((complexMasses eigen (massMatrix Lagrangian.zeroTensor (Yukawa.TwoHDM.leptonTensor c v1 v2 type) φ) :
        List ℂ) : Multiset ℂ) =
      (bothSigns (fun i => if type = 1 ∨ type = 4 then (c.charged i / v2 : ℂ) * (φ 6 + φ 7 * Complex.I)
          else (c.charged i / v1 : ℂ) * (φ 4 + φ 5 * Complex.I)) + Multiset.replicate 3 0).map cut := by
  rw [masses_of eigen he, lepton_roots _ (fun a b k => (Yukawa.TwoHDM.C78_2hdm_symmetric c v1 v2 type a b k).2) φ _ _
    ?_ fun ψ => Yukawa.TwoHDM.C78_2hdm_leptons c v1 v2 type ht ψ φ]
  · congr 3
    ext i
    unfold Yukawa.Spec.leptonDoublet Yukawa.Spec.leptonVev
    split_ifs with h
    · rw [Lagrangian.TwoDoublets.phi2, Lagrangian.Spec.doublet]
      simp only [cons_val_one, cons_val_zero]
      rw [Yukawa.coupling_mul]
    · rw [Lagrangian.TwoDoublets.phi1, Lagrangian.Spec.doublet]
      simp only [cons_val_one, cons_val_zero]
      rw [Yukawa.coupling_mul]
  · unfold Yukawa.Spec.leptonDoublet
    split_ifs <;>
      simp [Lagrangian.TwoDoublets.phi1, Lagrangian.TwoDoublets.phi2, Lagrangian.Spec.doublet, h0, h1, h2, h3]

/-! ## The phases -/

theorem isPhase_arg (z : ℂ) (h : |z.arg| ≤ Real.pi / 2) : IsPhase z z.arg :=
  ⟨h, .inl (Complex.norm_mul_exp_arg_mul_I z).symm⟩

theorem isPhase_neg {z : ℂ} {θ : ℝ} : IsPhase (-z) θ ↔ IsPhase z θ := by
  unfold IsPhase
  rw [norm_neg, neg_neg]
  constructor <;> exact fun ⟨h, h'⟩ => ⟨h, h'.symm⟩

/-- The phase is unique unless the number is imaginary. -/
theorem isPhase_unique {z : ℂ} (hz : z.re ≠ 0) {θ θ' : ℝ} (h : IsPhase z θ) (h' : IsPhase z θ') : θ = θ' := by
  have pi := Real.pi_pos
  have key : ∀ (w : ℂ) (t : ℝ), |t| ≤ Real.pi / 2 → w.re ≠ 0 → w = ‖w‖ * Complex.exp (t * Complex.I) →
      0 < w.re ∧ t = w.arg := by
    intro w t ht hw e
    have hn : 0 < ‖w‖ := norm_pos_iff.2 fun e0 => hw (by rw [e0]; rfl)
    have hre : w.re = ‖w‖ * Real.cos t := by
      conv_lhs => rw [e]
      rw [Complex.re_ofReal_mul, Complex.exp_ofReal_mul_I_re]
    have hc : 0 ≤ Real.cos t := Real.cos_nonneg_of_neg_pi_div_two_le_of_le (by linarith [(abs_le.1 ht).1])
      (abs_le.1 ht).2
    refine ⟨lt_of_le_of_ne (by rw [hre]; positivity) hw.symm, ?_⟩
    have ha : w.arg = t := by
      conv_lhs => rw [e]
      rw [Complex.exp_mul_I]
      exact Complex.arg_mul_cos_add_sin_mul_I hn ⟨by linarith [(abs_le.1 ht).1], by linarith [(abs_le.1 ht).2]⟩
    exact ha.symm
  have hz' : (-z).re ≠ 0 := by rw [Complex.neg_re]; exact neg_ne_zero.2 hz
  have hneg : (-z).re = -z.re := Complex.neg_re z
  obtain ⟨h1, e1⟩ := h
  obtain ⟨h2, e2⟩ := h'
  rw [← norm_neg] at e1 e2
  rcases e1 with e1 | e1 <;> rcases e2 with e2 | e2
  · rw [norm_neg] at e1 e2
    rw [(key z θ h1 hz e1).2, (key z θ' h2 hz e2).2]
  · rw [norm_neg] at e1
    have := (key z θ h1 hz e1).1
    have := (key (-z) θ' h2 hz' e2).1
    linarith
  · rw [norm_neg] at e2
    have := (key z θ' h2 hz e2).1
    have := (key (-z) θ h1 hz' e1).1
    linarith
  · rw [(key (-z) θ h1 hz' e1).2, (key (-z) θ' h2 hz' e2).2]

/-- A real factor does not change the phase. -/
theorem isPhase_mul (r : ℝ) (hr : r ≠ 0) (z : ℂ) (θ : ℝ) : IsPhase (r * z) θ ↔ IsPhase z θ := by
  have pos : ∀ r : ℝ, 0 < r → (IsPhase (r * z) θ ↔ IsPhase z θ) := by
    intro r hr
    unfold IsPhase
    rw [norm_mul, Complex.norm_of_nonneg hr.le]
    have hc : (r : ℂ) ≠ 0 := Complex.ofReal_ne_zero.2 hr.ne'
    have e1 : (r : ℂ) * z = ((r * ‖z‖ : ℝ) : ℂ) * Complex.exp (θ * Complex.I) ↔
        z = ‖z‖ * Complex.exp (θ * Complex.I) := by
      rw [Complex.ofReal_mul, mul_assoc]
      exact mul_right_inj' hc
    have e2 : -((r : ℂ) * z) = ((r * ‖z‖ : ℝ) : ℂ) * Complex.exp (θ * Complex.I) ↔
        -z = ‖z‖ * Complex.exp (θ * Complex.I) := by
      rw [Complex.ofReal_mul, mul_assoc, ← mul_neg]
      exact mul_right_inj' hc
    rw [e1, e2]
  rcases lt_or_gt_of_ne hr with h | h
  · rw [← isPhase_neg, ← pos (-r) (by linarith)]
    push_cast
    rw [neg_mul]
  · exact pos r h

/-- The phase read off two entries that differ in the sign is their phase. -/
theorem C137_phase (l : List ℂ) (k k' : Nat) (z : ℂ) (h : fromEnd l k = ok z) (h' : fromEnd l k' = ok (-z)) :
    ∃ θ, phase l k k' = ok θ ∧ IsPhase z θ := by
  unfold phase
  rw [h, h', bind_ok, bind_ok]
  by_cases hz : Real.pi / 2 < |z.arg|
  · rw [if_pos hz]
    refine ⟨_, rfl, isPhase_neg.1 (isPhase_arg _ ?_)⟩
    rw [Complex.abs_arg_le_pi_div_two_iff, Complex.neg_re]
    have : ¬ 0 ≤ z.re := fun h0 => absurd (Complex.abs_arg_le_pi_div_two_iff.2 h0) (not_le.2 hz)
    linarith
  · rw [if_neg hz]
    exact ⟨_, rfl, isPhase_arg z (not_lt.1 hz)⟩

theorem fromEnd_append (pre l : List ℂ) (k : Nat) (z : ℂ) (hk : k ≤ l.length) (h0 : 0 < k)
    (h : l[l.length - k]? = some z) : fromEnd (pre ++ l) k = ok z := by
  unfold fromEnd at'
  rw [if_neg (by simp; omega), List.length_append, show pre.length + l.length - k = pre.length + (l.length - k) by omega,
    List.getElem?_append_right (by omega), Nat.add_sub_cancel_left, h]

/-- If the masses come in the order of the specification - at the end of the quarks the bottom quark and the top
quark, at the end of the leptons the tau lepton, each with both signs - the phases are the phases of these masses;
those below `1e-14` are set to zero for the three particles. -/
theorem C137_phases_partial (pre pre' : List ℂ) (t b a : ℂ) :
    ∃ (p : Phases) (θb θa : ℝ), phases (pre ++ [-b, b, -t, t]) (pre' ++ [-a, a]) = ok p ∧
      IsPhase t p.all ∧ IsPhase b θb ∧ IsPhase a θa ∧
      p.top = (if |p.all| < 1 / 10 ^ 14 then 0 else p.all) ∧
      p.bot = (if |θb| < 1 / 10 ^ 14 then 0 else θb) ∧
      p.tau = (if |θa| < 1 / 10 ^ 14 then 0 else θa) := by
  obtain ⟨x, hx, px⟩ := C137_phase (pre ++ [-b, b, -t, t]) 1 2 t
    (fromEnd_append pre _ 1 t (by simp) (by simp) rfl) (fromEnd_append pre _ 2 (-t) (by simp) (by simp) rfl)
  obtain ⟨y, hy, py⟩ := C137_phase (pre ++ [-b, b, -t, t]) 3 4 b
    (fromEnd_append pre _ 3 b (by simp) (by simp) rfl) (fromEnd_append pre _ 4 (-b) (by simp) (by simp) rfl)
  obtain ⟨z, hz, pz⟩ := C137_phase (pre' ++ [-a, a]) 1 2 a
    (fromEnd_append pre' _ 1 a (by simp) (by simp) rfl) (fromEnd_append pre' _ 2 (-a) (by simp) (by simp) rfl)
  refine ⟨⟨x, stable x, stable y, stable z⟩, y, z, ?_, px, py, pz, rfl, rfl, rfl⟩
  rw [phases, hx, bind_ok, hy, bind_ok, hz, bind_ok]

/-- In the models with two doublets the phase is then that of the neutral component of the second doublet, with the
sign reversed because up-type quarks couple to the conjugate. -/
theorem C137_doublet_partial (eigen : Matrix (Fin 12) (Fin 12) ℂ → List ℂ) (c : Yukawa.Constants)
    (v1 v2 : ℝ) (type : Int) (φ : Fin 8 → ℝ) (pre pre' : List ℂ) (b a : ℂ) (hm : c.mTop ≠ 0) (hv : v2 ≠ 0)
    (h : complexMasses eigen (massMatrix Lagrangian.zeroTensor (Yukawa.TwoHDM.quarkTensor c v1 v2 type) φ) =
      pre ++ [-b, b, -((c.mTop / v2 : ℝ) * (φ 6 - φ 7 * Complex.I)), (c.mTop / v2 : ℝ) * (φ 6 - φ 7 * Complex.I)]) :
    ∃ p, phases (complexMasses eigen (massMatrix Lagrangian.zeroTensor
        (Yukawa.TwoHDM.quarkTensor c v1 v2 type) φ)) (pre' ++ [-a, a]) = ok p ∧
      IsPhase (φ 6 + φ 7 * Complex.I) (-p.all) := by
  obtain ⟨p, θb, θa, hp, ht, _⟩ := C137_phases_partial pre pre' ((c.mTop / v2 : ℝ) * (φ 6 - φ 7 * Complex.I)) b a
  rw [h]
  refine ⟨p, hp, ?_⟩
  rw [isPhase_mul _ (div_ne_zero hm hv)] at ht
  obtain ⟨h1, h2⟩ := ht
  have hn : ‖(φ 6 + φ 7 * Complex.I : ℂ)‖ = ‖(φ 6 - φ 7 * Complex.I : ℂ)‖ := by
    rw [← Complex.norm_conj]
    congr 1
    simp [sub_eq_add_neg]
  refine ⟨by rwa [abs_neg], ?_⟩
  rw [hn]
  have conj_eq : ∀ w : ℂ, w = ‖(φ 6 - φ 7 * Complex.I : ℂ)‖ * Complex.exp (p.all * Complex.I) →
      conj w = ‖(φ 6 - φ 7 * Complex.I : ℂ)‖ * Complex.exp ((-p.all : ℝ) * Complex.I) := by
    intro w hw
    rw [hw, map_mul, Complex.conj_ofReal, ← Complex.exp_conj]
    simp
  rcases h2 with h2 | h2
  · left
    have := conj_eq _ h2
    simpa using this
  · right
    have := conj_eq _ h2
    rw [← this]
    simp only [map_neg, map_sub, map_mul, Complex.conj_ofReal, Complex.conj_I]
    ring

/-- The order of the two signs does not matter unless the mass is imaginary. -/
theorem C137_signs (pre pre' : List ℂ) (t b a : ℂ) (ht : t.re ≠ 0) (p q : Phases) (l : List ℂ)
    (h : phases (pre ++ [-b, b, -t, t]) l = ok p) (h' : phases (pre' ++ [-b, b, t, -t]) l = ok q) :
    p.all = q.all := by
  obtain ⟨x, hx, px⟩ := C137_phase (pre ++ [-b, b, -t, t]) 1 2 t
    (fromEnd_append pre _ 1 t (by simp) (by simp) rfl) (fromEnd_append pre _ 2 (-t) (by simp) (by simp) rfl)
  obtain ⟨y, hy, py⟩ := C137_phase (pre' ++ [-b, b, t, -t]) 1 2 (-t)
    (fromEnd_append pre' _ 1 (-t) (by simp) (by simp) rfl)
    (fromEnd_append pre' _ 2 (- -t) (by simp) (by simp) (by simp))
  unfold phases at h h'
  rw [hx, bind_ok] at h
  rw [hy, bind_ok] at h'
  obtain ⟨_, _, h⟩ := Programs.bind_eq_ok h
  obtain ⟨_, _, h⟩ := Programs.bind_eq_ok h
  obtain ⟨_, _, h'⟩ := Programs.bind_eq_ok h'
  obtain ⟨_, _, h'⟩ := Programs.bind_eq_ok h'
  injection h with h
  injection h' with h'
  rw [← h, ← h']
  exact isPhase_unique ht px (isPhase_neg.1 py)

/-- Lists that are too short raise an exception. -/
theorem C137_short (q l : List ℂ) (h : l.length = 0 ∨ q.length < 3) :
    phases q l = err .outOfRange := by
  have short : ∀ (l : List ℂ) (k k' : Nat), l.length < k → phase l k k' = err .outOfRange := by
    intro l k k' hk
    unfold phase fromEnd
    rw [if_pos hk]
    rfl
  have err_or : ∀ (l : List ℂ) (k k' : Nat), 0 < k → 0 < k' →
      phase l k k' = err .outOfRange ∨ ∃ x, phase l k k' = ok x := by
    intro l k k' hk hk'
    have fe : ∀ j : Nat, 0 < j → fromEnd l j = err .outOfRange ∨ ∃ z, fromEnd l j = ok z := by
      intro j hj
      unfold fromEnd
      by_cases h : l.length < j
      · rw [if_pos h]; exact .inl rfl
      · rw [if_neg h, at'_of_lt (by omega)]; exact .inr ⟨_, rfl⟩
    unfold phase
    rcases fe k hk with h | ⟨z, h⟩
    · rw [h]; exact .inl rfl
    · rw [h, bind_ok]
      split_ifs
      · rcases fe k' hk' with h | ⟨z', h⟩
        · rw [h]; exact .inl rfl
        · rw [h]; exact .inr ⟨_, rfl⟩
      · exact .inr ⟨_, rfl⟩
  unfold phases
  rcases err_or q 1 2 (by omega) (by omega) with h1 | ⟨x, h1⟩
  · rw [h1, bind_err]
  · rw [h1, bind_ok]
    rcases err_or q 3 4 (by omega) (by omega) with h2 | ⟨y, h2⟩
    · rw [h2, bind_err]
    · rw [h2, bind_ok]
      rcases h with h | h
      · rw [short l 1 2 (by omega), bind_err]
      · rw [short q 3 4 (by omega)] at h2; cases h2

/-! ## The order of the masses

The library does not promise an order of the eigenvalues. -/

theorem phase_arg (l : List ℂ) (k k' : Nat) (z : ℂ) (h : fromEnd l k = ok z) (hz : 0 ≤ z.re) :
    phase l k k' = ok z.arg := by
  unfold phase
  rw [h, bind_ok, if_neg (not_lt.2 (Complex.abs_arg_le_pi_div_two_iff.2 hz))]

theorem arg_one_add_I : ((1 : ℂ) + Complex.I).arg ≠ 0 := by
  intro h
  have := (Complex.arg_eq_zero_iff.1 h).2
  simp at this

/-- The same masses in another order give another phase of the top quark, and another phase of the tau lepton if
a neutrino comes last. -/
theorem C137_order_fails : ∃ (q q' l l' : List ℂ) (p p' : Phases), q.Perm q' ∧ l.Perm l' ∧
    phases q l = ok p ∧ phases q' l' = ok p' ∧ p.all ≠ p'.all ∧ IsPhase (1 + Complex.I) p.all ∧ p'.all = 0 ∧
    p'.tau = 0 ∧ ¬ IsPhase (1 + Complex.I) p'.tau := by
  have hre : (0 : ℝ) ≤ (1 + Complex.I : ℂ).re := by simp
  have hph : IsPhase (1 + Complex.I) (1 + Complex.I : ℂ).arg :=
    isPhase_arg _ (Complex.abs_arg_le_pi_div_two_iff.2 hre)
  refine ⟨[-1, 1, -(1 + Complex.I), 1 + Complex.I], [-(1 + Complex.I), 1 + Complex.I, -1, 1],
    [0, -(1 + Complex.I), 1 + Complex.I], [-(1 + Complex.I), 1 + Complex.I, 0],
    ⟨(1 + Complex.I : ℂ).arg, stable (1 + Complex.I : ℂ).arg, stable (1 : ℂ).arg, stable (1 + Complex.I : ℂ).arg⟩,
    ⟨(1 : ℂ).arg, stable (1 : ℂ).arg, stable (1 + Complex.I : ℂ).arg, stable (0 : ℂ).arg⟩, ?_, ?_, ?_, ?_, ?_, hph,
    ?_, ?_, ?_⟩
  · exact (List.perm_append_comm (l₁ := [-1, 1]) (l₂ := [-(1 + Complex.I), 1 + Complex.I]))
  · exact (List.perm_append_comm (l₁ := [0]) (l₂ := [-(1 + Complex.I), 1 + Complex.I]))
  · rw [phases, phase_arg _ 1 2 (1 + Complex.I) rfl hre, bind_ok, phase_arg _ 3 4 1 rfl (by simp), bind_ok,
      phase_arg _ 1 2 (1 + Complex.I) rfl hre, bind_ok]
  · rw [phases, phase_arg _ 1 2 1 rfl (by simp), bind_ok, phase_arg _ 3 4 (1 + Complex.I) rfl hre, bind_ok,
      phase_arg _ 1 2 0 rfl (by simp), bind_ok]
  · show (1 + Complex.I : ℂ).arg ≠ (1 : ℂ).arg
    rw [Complex.arg_one]
    exact arg_one_add_I
  · exact Complex.arg_one
  · show stable (0 : ℂ).arg = 0
    rw [Complex.arg_zero, stable]
    simp
  · show ¬ IsPhase (1 + Complex.I) (stable (0 : ℂ).arg)
    rw [Complex.arg_zero, show stable 0 = 0 by simp [stable]]
    intro h
    exact arg_one_add_I (isPhase_unique (by simp) hph h)

/-- An imaginary mass has the phase `π/2` or `-π/2`, depending on the order of the signs. -/
theorem C137_imaginary_fails (b : ℂ) (l : List ℂ) (p q : Phases)
    (h : phases [-b, b, -Complex.I, Complex.I] l = ok p) (h' : phases [-b, b, Complex.I, -Complex.I] l = ok q) :
    p.all = Real.pi / 2 ∧ q.all = -(Real.pi / 2) := by
  unfold phases at h h'
  rw [phase_arg _ 1 2 Complex.I rfl (by simp), bind_ok] at h
  rw [phase_arg _ 1 2 (-Complex.I) rfl (by simp), bind_ok] at h'
  obtain ⟨_, _, h⟩ := Programs.bind_eq_ok h
  obtain ⟨_, _, h⟩ := Programs.bind_eq_ok h
  obtain ⟨_, _, h'⟩ := Programs.bind_eq_ok h'
  obtain ⟨_, _, h'⟩ := Programs.bind_eq_ok h'
  injection h with h
  injection h' with h'
  rw [← h, ← h']
  exact ⟨Complex.arg_I, Complex.arg_neg_I⟩

example : ∃ p, phases [-1, 1, -Complex.I, Complex.I] [-1, 1] = ok p := phases_ok _ _ (by simp) (by simp)

/-- There is a function that gives the eigenvalues. -/
example : ∃ eigen : Matrix (Fin 12) (Fin 12) ℂ → List ℂ, IsEigen eigen :=
  ⟨fun M => M.charpoly.roots.toList, fun M => Multiset.coe_toList _⟩

/-- A list in the order of the specification, for a vacuum with a CP-violating component. -/
example : IsPhase (3 - 4 * Complex.I) (3 - 4 * Complex.I : ℂ).arg :=
  isPhase_arg _ (Complex.abs_arg_le_pi_div_two_iff.2 (by simp))

end Verif.Baryo.Phases
