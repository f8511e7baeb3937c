import Verif.Check.NumericProps
import Verif.Weinberg.Props
import Verif.Weinberg.Tree
import Verif.Weinberg.StandardModel
import Verif.Lagrangian.C2HDM.Props
import Verif.Lagrangian.CPintheDark.Props
import Verif.Spectrum.Vacuum

/-!
# The numerical checks and the models
-/

set_option linter.unusedSectionVars false
set_option linter.unusedSimpArgs false

namespace Verif.Check

open Verif.Potential Verif.Invariance Verif.Yukawa Verif.Lagrangian Verif.Lagrangian.Spec Verif.Debye Verif.Spectrum Matrix
open Verif.Weinberg (Vectors physicalCouplings weinbergFirst weinbergSecond
  C83_loop_derivatives C83_negative roots_of_diag)
open Weinberg.Spec (Regular Apart Clean Lawful)
open Spec (verdict table2)

/-! ### Renormalisation -/

/-- If both checks of the counterterms pass, then the gradient and the Hesse matrix of the effective potential
in the vacuum at zero temperature are those of the tree-level potential up to the bounds of the checks and the
thresholds of the derivatives. -/
theorem C106_renormalised {n : Nat} {S : Solver} {X : Vectors} {T : Tensors n} {v : Fin n → ℝ}
    (hS : S.Correct) (hX : X.Correct S) (hT : Lawful T) {scale : ℝ}
    (hs : 0 < scale) (hm : Regular (1 / 10 ^ 4) T v) (hc : Clean X T v) (hd : Apart T v)
    (JB JF : Thermal) {ct : Curv n ℝ} (hct : Potential.Spec.Symmetric ct) {N : Fin n → Flt ℝ}
    {R : Fin n → Fin n → Flt ℝ}
    (hN : weinbergFirst (some (physicalCouplings S X T v)) scale = .ok N)
    (hR : weinbergSecond (some (physicalCouplings S X T v)) scale = .ok R)
    (h1 : ctFirst (List.ofFn N) (List.ofFn fun i => .fin (nablaVCT ct v i)) = .pass)
    (h2 : ctSecond (table2 fun i j => .fin (hessianCT ct v i j)) (table2 R) = .pass) :
    ∃ (g : Fin n → ℝ) (h : Fin n → Fin n → ℝ), Expansion (T.effective ct none S scale JB JF 0) v g h ∧
      (∀ i, |g i - grad T.scalar v i| ≤ 1 / 10 ^ 5 + 1 / 10 ^ 10) ∧
      ∀ i j, |h i j - hessianCT T.scalar v i j| ≤
        1 / 10 ^ 5 + (1 + n / (16 * Real.pi ^ 2)) / 10 ^ 10 := by
  obtain ⟨N', H', R', hE, e1, e2, hR'⟩ := C83_loop_derivatives hS hX hT hs hm hc hd JB JF
  have f1 : N = _ := Outcome.ok.inj (hN.symm.trans e1)
  have f2 : R = _ := Outcome.ok.inj (hR.symm.trans e2)
  subst f1 f2
  rw [(C106_conditions_partial (fun k => if |N' k| < 1 / 10 ^ 10 then 0 else N' k) (nablaVCT ct v) R'
    (hessianCT ct v)).1, verdict_pass] at h1
  rw [(C106_conditions_partial (fun k => if |N' k| < 1 / 10 ^ 10 then 0 else N' k) (nablaVCT ct v) R'
    (hessianCT ct v)).2, verdict_pass] at h2
  refine ⟨fun i => grad T.scalar v i + grad ct v i + N' i,
    fun i j => hessianCT T.scalar v i j + hessianCT ct v i j + H' i j,
    (((Weinberg.expansion_polynomial T.scalar hT.scalar v).add 
      (Weinberg.expansion_polynomial ct hct v)).add hE).congr ?_
      (fun i => rfl) fun i j => rfl, fun i => ?_, fun i j => ?_⟩
  · funext φ
    unfold Tensors.effective
    rw [C30_value _ _ _ _ (by simp), C30_counterterm_value _ _ _ _ (by simp)]
  · have := h1 i
    simp only [nablaVCT] at this
    rw [show grad T.scalar v i + grad ct v i + N' i - grad T.scalar v i = grad ct v i + N' i by ring]
    split_ifs at this with hlt
    · have h3 := abs_add_le (grad ct v i) (N' i)
      rw [zero_add] at this
      linarith
    · rw [add_comm]
      exact this.trans (by norm_num)
  · have := h2 i j
    have h3 := hR' i j
    rw [show hessianCT T.scalar v i j + hessianCT ct v i j + H' i j - hessianCT T.scalar v i j =
      (hessianCT ct v i j + R' i j) + -(R' i j - H' i j) by ring]
    refine (abs_add_le _ _).trans ?_
    rw [abs_neg]
    exact add_le_add this h3

/-- But in a vacuum that is a saddle point of the tree-level potential both checks pass whatever the
counterterms are. -/
theorem C106_saddle_fails {n : Nat} {S : Solver} {X : Vectors} {T : Tensors n} {v : Fin n → ℝ}
    (scale : ℝ) (hS : S.Correct) (hT : Lawful T)
    (h : ∃ x ∈ (Weinberg.Spec.scalarMatrix T.scalar v).charpoly.roots, x ≤ -(1 / 10 ^ 5))
    {N : Fin n → Flt ℝ} {R : Fin n → Fin n → Flt ℝ}
    (hN : weinbergFirst (some (physicalCouplings S X T v)) scale = .ok N)
    (hR : weinbergSecond (some (physicalCouplings S X T v)) scale = .ok R) (ct : Curv n ℝ) :
    ctFirst (List.ofFn N) (List.ofFn fun i => .fin (nablaVCT ct v i)) = .pass ∧
      ctSecond (table2 fun i j => .fin (hessianCT ct v i j)) (table2 R) = .pass := by
  obtain ⟨h1, h2⟩ := C83_negative (S := S) (X := X) (T := T) (v := v) scale hS hT h
  have f1 : N = fun _ => .nan := Outcome.ok.inj (hN.symm.trans h1)
  have f2 : R = fun _ _ => .nan := Outcome.ok.inj (hR.symm.trans h2)
  subst f1 f2
  exact C106_conditions_fails _ _

/-- Counterterms that cancel the derivatives pass. -/
theorem cancelled {n : Nat} {ct : Curv n ℝ} {v N : Fin n → ℝ} {H : Fin n → Fin n → ℝ}
    (hN : ∀ i, nablaVCT ct v i = -N i) (hH : ∀ i j, hessianCT ct v i j = -H i j) :
    ctFirst (List.ofFn fun i => .fin (N i)) (List.ofFn fun i => .fin (nablaVCT ct v i)) = .pass ∧
      ctSecond (table2 fun i j => .fin (hessianCT ct v i j)) (table2 fun i j => .fin (H i j)) = .pass := by
  obtain ⟨h1, h2⟩ := C106_conditions_partial N (nablaVCT ct v) H (hessianCT ct v)
  rw [h1, h2, verdict_pass, verdict_pass]
  constructor
  · intro i; rw [hN, add_neg_cancel, abs_zero]; norm_num
  · intro i j; rw [hH, neg_add_cancel, abs_zero]; norm_num

/-! ### Gauge bosons -/

theorem sorted_eq {l m : List ℝ} (hl : l.Pairwise (· ≤ ·)) (hm : m.Pairwise (· ≤ ·)) (h : l.Perm m) :
    l = m := List.Perm.eq_of_pairwise (fun _ _ _ _ h h' => le_antisymm h h') hl hm h

/-- A model whose gauge bosons have the spectrum `0, m_W, m_W, m_Z` in the vacuum passes the check. -/
theorem C106_gauge_spectrum {n : Nat} {S : Solver} (hS : S.Correct) (G : List Nat → ℝ)
    (D : Matrix (Fin 4) (Fin 4) ℝ) (v : Fin n → ℝ) (mW mZ : ℝ) (hW : 1 / 10 ^ 5 ≤ mW ^ 2)
    (hZ : mW ^ 2 ≤ mZ ^ 2)
    (h : (gaugeMatrix G D 0 v).charpoly = Yukawa.Spec.gaugeSpectrum mW mZ) :
    gaugeBosonMasses mW mZ ((gaugeSpectrum S G D v 0 0).map Flt.fin) = .pass := by
  have hm : ([0, mW ^ 2, mW ^ 2, mZ ^ 2] : List ℝ).Pairwise (· ≤ ·) := by
    have := sq_nonneg mW
    have := sq_nonneg mZ
    simp [*]
  have hp : (Yukawa.Spec.gaugeSpectrum mW mZ).roots =
      (([0, mW ^ 2, mW ^ 2, mZ ^ 2] : List ℝ) : Multiset ℝ) := by
    have e : Yukawa.Spec.gaugeSpectrum mW mZ = ((([0, mW ^ 2, mW ^ 2, mZ ^ 2] : List ℝ) : Multiset ℝ).map
        fun a => Polynomial.X - Polynomial.C a).prod := by
      simp [Yukawa.Spec.gaugeSpectrum]
      ring
    rw [e, Polynomial.roots_multiset_prod_X_sub_C]
  have hH : (gaugeMatrix G D 0 v).IsHermitian := IsHermitian.ext fun a b => by
    simpa using gaugeMatrix_symm G D 0 v b a
  obtain ⟨h1, h2⟩ := hS.real _ hH
  rw [h, hp, Multiset.coe_eq_coe] at h2
  have e := sorted_eq h1 hm h2
  rw [gaugeSpectrum, if_pos rfl, e, C106_gauge mW mZ _ _ hm (List.Perm.refl _), verdict_pass]
  have c0 : cutMass 0 = 0 := by simp [cutMass]
  have c1 : ∀ x : ℝ, 1 / 10 ^ 5 ≤ x → cutMass x = x := fun x hx => by
    rw [cutMass, if_neg]
    rw [abs_of_nonneg (le_trans (by norm_num) hx), not_lt]
    exact le_trans (by norm_num) hx
  refine ⟨rfl, ?_⟩
  have w0 : mW ≠ 0 := fun h => by rw [h] at hW; norm_num at hW
  have z0 : mZ ≠ 0 := fun h => by rw [h] at hZ; exact absurd (hW.trans hZ) (by norm_num)
  simp [c0, c1 _ hW, c1 _ (hW.trans hZ), Spec.deviation, w0, z0]

variable {S : Solver} (hS : S.Correct) (x : Numbers) (hG : 0 < x.GF) (hW : 1 / 10 ^ 5 ≤ x.mW ^ 2)
  (hZ : x.mW ^ 2 ≤ x.mZ ^ 2) (D : Matrix (Fin 4) (Fin 4) ℝ)

include hS hG hW hZ in
/-- The shipped models pass it, with the calculated constants of the standard model. -/
theorem C106_gauge_models (t vs va : ℝ) :
    let c := getSMConstants x
    let check (n : Nat) (G : List Nat → ℝ) (v : Fin n → ℝ) : TestResult :=
      gaugeBosonMasses x.mW x.mZ ((gaugeSpectrum S G D v 0 0).map Flt.fin)
    check 4 (SM.gauge c.g c.gs) (SM.vevTree c.vev0) = .pass ∧
      check 6 (CxSM.gauge c.g c.gs) (CxSM.vevTree c.vev0 vs va) = .pass ∧
      check 8 (R2HDM.gauge c.g c.gs) (R2HDM.vevTree (c.vev0 * R2HDM.cosBeta t) (c.vev0 * R2HDM.sinBeta t)) =
        .pass ∧
      check 8 (C2HDM.gauge c.g c.gs) (C2HDM.vevTree (c.vev0 * C2HDM.cosBeta t) (c.vev0 * C2HDM.sinBeta t)) =
        .pass ∧
      check 9 (N2HDM.gauge c.g c.gs)
        (N2HDM.vevTree (c.vev0 * N2HDM.cosBeta t) (c.vev0 * N2HDM.sinBeta t) vs) = .pass ∧
      check 9 (CPintheDark.gauge c.g c.gs) (CPintheDark.vevTree c.vev0) = .pass :=
  ⟨C106_gauge_spectrum hS _ D _ _ _ hW hZ (C79_sm_gauge x hG hZ D),
    C106_gauge_spectrum hS _ D _ _ _ hW hZ (C79_cxsm_gauge_partial x hG hZ vs va D),
    C106_gauge_spectrum hS _ D _ _ _ hW hZ (C79_r2hdm_gauge x hG hZ t D),
    C106_gauge_spectrum hS _ D _ _ _ hW hZ (C79_c2hdm_gauge x hG hZ t D),
    C106_gauge_spectrum hS _ D _ _ _ hW hZ (C79_n2hdm_gauge x hG hZ t vs D),
    C106_gauge_spectrum hS _ D _ _ _ hW hZ (C79_cpinthedark_gauge x hG hZ D)⟩

/-! ### Fermions -/

theorem cutFermion_near (x : ℝ) : |cutFermion x - x| ≤ 1 / 10 ^ 10 := by
  unfold cutFermion
  split_ifs with h
  · rw [zero_sub, abs_neg]; exact h.le
  · simp

/-- The eigenvalues of a diagonal matrix with squares of masses. -/
theorem spectrum_squares {S : Solver} (hS : S.Correct) {m n : Nat} (F : List Nat → ℂ) (v : Fin n → ℝ)
    (d : Fin m → ℝ) (h : squaredMatrix (m := m) zeroTensor F v = Yukawa.Spec.squares d) :
    ∃ l : List ℝ, l.Pairwise (· ≤ ·) ∧ l.Perm (List.ofFn fun i => d i ^ 2) ∧
      fermionSpectrum S m F v 0 = l.map cutFermion := by
  have hH : (squaredMatrix (m := m) zeroTensor F v).IsHermitian := by
    rw [h, Yukawa.Spec.squares]
    refine isHermitian_diagonal_of_self_adjoint _ ?_
    ext i
    simp [Complex.conj_ofReal]
  obtain ⟨h1, h2⟩ := hS.complex _ hH
  refine ⟨_, h1, ?_, by rw [fermionSpectrum, if_pos le_rfl]⟩
  rw [h, Yukawa.Spec.squares, roots_of_diag] at h2
  rw [h]
  have e : (Finset.univ.val.map fun i => ((d i ^ 2 : ℝ) : ℂ)) =
      (((List.ofFn fun i => d i ^ 2).map Complex.ofReal : List ℂ) : Multiset ℂ) := by
    rw [List.map_ofFn, Fin.univ_val_map]
    rfl
  rw [Yukawa.Spec.squares]
  rw [e, Multiset.coe_eq_coe] at h2
  exact (List.map_perm_map_iff Complex.ofReal_injective).1 h2

theorem sum_cut (l : List ℝ) (n : Nat) (hn : n ≤ 12) :
    ((List.range n).map fun i => |(l.map cutFermion).getD i 0 - l.getD i 0|).sum ≤ 1 / 10 ^ 5 := by
  refine (List.sum_le_card_nsmul _ (1 / 10 ^ 10) fun y hy => ?_).trans ?_
  · obtain ⟨i, -, rfl⟩ := List.mem_map.1 hy
    by_cases hi : i < l.length
    · rw [List.getD_eq_getElem _ _ (by simpa using hi), List.getD_eq_getElem _ _ hi, List.getElem_map]
      exact cutFermion_near _
    · rw [List.getD_eq_default _ _ (by simpa using hi), List.getD_eq_default _ _ (by simpa using hi)]
      norm_num
  · rw [List.length_map, List.length_range, nsmul_eq_mul]
    have : (n : ℝ) ≤ 12 := by exact_mod_cast hn
    have : (n : ℝ) * (1 / 10 ^ 10) ≤ 12 * (1 / 10 ^ 10) :=
      mul_le_mul_of_nonneg_right this (by norm_num)
    exact this.trans (by norm_num)

/-- The constants of the fermions. -/
noncomputable def constants (up down charged : Fin 3 → ℝ) : FermionConstants ℝ :=
  ⟨charged 0, charged 1, charged 2, up 0, up 1, up 2, down 0, down 1, down 2⟩

/-- A model whose fermions have the masses of the standard model in the vacuum passes both checks. -/
theorem C106_fermion_spectrum {n : Nat} {S : Solver} (hS : S.Correct) (Q L : List Nat → ℂ)
    (v : Fin n → ℝ) (up down charged : Fin 3 → ℝ) (q : Fin 12 → ℝ)
    (hq : q = Yukawa.Spec.quarkMasses up down ∨ q = Yukawa.Spec.darkQuarkMasses up down)
    (h1 : squaredMatrix (m := 12) zeroTensor Q v = Yukawa.Spec.squares q)
    (h2 : squaredMatrix (m := 9) zeroTensor L v = Yukawa.Spec.squares (Yukawa.Spec.leptonMasses charged)) :
    fermionicMasses (constants up down charged) 9 ((fermionSpectrum S 9 L v 0).map Flt.fin)
      ((fermionSpectrum S 12 Q v 0).map Flt.fin) = .ok (.pass, .pass) := by
  obtain ⟨a, a1, a2, a3⟩ := spectrum_squares hS Q v _ h1
  obtain ⟨b, b1, b2, b3⟩ := spectrum_squares hS L v _ h2
  have la : a.length = 12 := by simpa using a2.length_eq
  have lb : b.length = 9 := by simpa using b2.length_eq
  rw [a3, b3, C106_fermions (constants up down charged) 9 (b.map cutFermion) (a.map cutFermion) b a b1 a1
    ?_ ?_ (by simp)]
  · rw [verdict_true (Or.inr ?_), verdict_true ?_]
    · rw [List.length_map]; exact sum_cut a _ la.le
    · rw [List.length_map, max_self]; exact sum_cut b _ (by omega)
  · refine b2.trans (List.perm_iff_count.2 fun z => ?_)
    simp only [Yukawa.Spec.leptonMasses, List.ofFn_succ, List.ofFn_zero, constants, List.count_cons,
      List.count_nil, Matrix.cons_val_zero, Matrix.cons_val_succ, Fin.succ_zero_eq_one]
    simp
    omega
  · rw [if_neg (by norm_num), List.append_nil]
    refine a2.trans (List.perm_iff_count.2 fun z => ?_)
    rcases hq with rfl | rfl
    · simp only [Yukawa.Spec.quarkMasses, List.ofFn_succ, List.ofFn_zero, constants, List.count_cons,
        List.count_nil, Matrix.cons_val_zero, Matrix.cons_val_succ, Fin.succ_zero_eq_one]
      omega
    · simp only [Yukawa.Spec.darkQuarkMasses, List.ofFn_succ, List.ofFn_zero, constants, List.count_cons,
        List.count_nil, Matrix.cons_val_zero, Matrix.cons_val_succ, Fin.succ_zero_eq_one]
      omega

include hS hG hZ in
/-- The shipped models pass both checks, for the documented types. -/
theorem C106_fermion_models (t vs va : ℝ) (ht : t ≠ 0) (type : Int) (hd : TwoHDM.Documented type) :
    let c := getSMConstants x
    let check (n : Nat) (Q L : List Nat → ℂ) (v : Fin n → ℝ) : Outcome (TestResult × TestResult) :=
      fermionicMasses (constants c.up c.down c.charged) 9 ((fermionSpectrum S 9 L v 0).map Flt.fin)
        ((fermionSpectrum S 12 Q v 0).map Flt.fin)
    let v1 := fun f : ℝ → ℝ => c.vev0 * f t
    check 4 (Yukawa.SM.quarkTensor c c.vev0) (Yukawa.SM.leptonTensor c c.vev0) (SM.vevTree c.vev0) =
        .ok (.pass, .pass) ∧
      check 6 (Yukawa.CxSM.quarkTensor c c.vev0) (Yukawa.CxSM.leptonTensor c c.vev0)
        (CxSM.vevTree c.vev0 vs va) = .ok (.pass, .pass) ∧
      check 8 (TwoHDM.quarkTensor c (v1 R2HDM.cosBeta) (v1 R2HDM.sinBeta) type)
        (TwoHDM.leptonTensor c (v1 R2HDM.cosBeta) (v1 R2HDM.sinBeta) type)
        (R2HDM.vevTree (v1 R2HDM.cosBeta) (v1 R2HDM.sinBeta)) = .ok (.pass, .pass) ∧
      check 8 (TwoHDM.quarkTensor c (v1 C2HDM.cosBeta) (v1 C2HDM.sinBeta) type)
        (TwoHDM.leptonTensor c (v1 C2HDM.cosBeta) (v1 C2HDM.sinBeta) type)
        (C2HDM.vevTree (v1 C2HDM.cosBeta) (v1 C2HDM.sinBeta)) = .ok (.pass, .pass) ∧
      check 9 (TwoHDM.quarkTensorN c (v1 N2HDM.cosBeta) (v1 N2HDM.sinBeta) type)
        (TwoHDM.leptonTensorN c (v1 N2HDM.cosBeta) (v1 N2HDM.sinBeta) type)
        (N2HDM.vevTree (v1 N2HDM.cosBeta) (v1 N2HDM.sinBeta) vs) = .ok (.pass, .pass) ∧
      check 9 (Yukawa.CPintheDark.quarkTensor c c.vev0) (Yukawa.CPintheDark.leptonTensor c c.vev0)
        (CPintheDark.vevTree c.vev0) = .ok (.pass, .pass) := by
  intro c check v1
  have hv : c.vev0 ≠ 0 := (C79_constants x hG hZ).1.ne'
  refine ⟨?_, ?_, ?_, ?_, ?_, ?_⟩
  · exact C106_fermion_spectrum hS _ _ _ _ _ _ _ (.inl rfl) (C79_sm_fermions c c.vev0 hv).1
      (C79_sm_fermions c c.vev0 hv).2
  · exact C106_fermion_spectrum hS _ _ _ _ _ _ _ (.inl rfl) (C79_cxsm_fermions c c.vev0 vs va hv).1
      (C79_cxsm_fermions c c.vev0 vs va hv).2
  · exact C106_fermion_spectrum hS _ _ _ _ _ _ _ (.inl rfl) (C79_r2hdm_fermions c hv t ht type hd).1
      (C79_r2hdm_fermions c hv t ht type hd).2
  · exact C106_fermion_spectrum hS _ _ _ _ _ _ _ (.inl rfl) (C79_c2hdm_fermions c hv t ht type hd).1
      (C79_c2hdm_fermions c hv t ht type hd).2
  · exact C106_fermion_spectrum hS _ _ _ _ _ _ _ (.inl rfl) (C79_n2hdm_fermions c hv t vs ht type hd).1
      (C79_n2hdm_fermions c hv t vs ht type hd).2
  · exact C106_fermion_spectrum hS _ _ _ _ _ _ _ (.inr rfl) (C79_cpinthedark_fermions c c.vev0 hv).1
      (C79_cpinthedark_fermions c c.vev0 hv).2

/-! ### Simplified potentials -/

/-- The values of the potential from the tensors and from the simplified function at the points. -/
noncomputable def treeValues {n : Nat} (s : FVec n ℝ → ℝ) (t : Curv n ℝ) (points : List (FVec n ℝ)) :
    List (Flt ℝ × Flt ℝ) :=
  points.map fun φ => (.fin (vTree true s t φ 0 true), .fin (vTree true s t φ 0 false))

/-- The same for the counterterm potential. -/
noncomputable def counterValues {n : Nat} (s : FVec n ℝ → ℝ) (t : Curv n ℝ) (points : List (FVec n ℝ)) :
    List (Flt ℝ × Flt ℝ) :=
  points.map fun φ => (.fin (counterTerm true s t φ 0 true), .fin (counterTerm true s t φ 0 false))

/-- The simplified potentials of the C2HDM pass, whatever the points are. -/
theorem C106_c2hdm_simplified (p : C2HDM.Par ℝ) (c : C2HDM.CT ℝ) (points : List (FVec 8 ℝ))
    (h : ∀ φ ∈ points, φ 0 = 0 ∧ φ 1 = 0 ∧ φ 3 = 0 ∧ φ 5 = 0) :
    treeSimplified (treeValues (C2HDM.treeSimplified p) (C2HDM.tree p) points) = .pass ∧
      counterSimplified (counterValues (C2HDM.counterSimplified c) (C2HDM.counter c) points) = .pass := by
  have key : ∀ φ ∈ points,
      vTree true (C2HDM.treeSimplified p) (C2HDM.tree p) φ 0 true =
          vTree true (C2HDM.treeSimplified p) (C2HDM.tree p) φ 0 false ∧
        counterTerm true (C2HDM.counterSimplified c) (C2HDM.counter c) φ 0 true =
          counterTerm true (C2HDM.counterSimplified c) (C2HDM.counter c) φ 0 false := by
    intro φ hφ
    obtain ⟨h0, h1, h3, h5⟩ := h φ hφ
    obtain ⟨e1, e2⟩ := C2HDM.C74_c2hdm_simplified p c φ h0 h1 h3 h5
    rw [← C2HDM.C74_c2hdm_potential p φ (C2HDM.treeSimplified p) true] at e1
    rw [← C2HDM.C74_c2hdm_counterterms c φ (C2HDM.counterSimplified c) true] at e2
    rw [Complex.ofReal_injective e1, Complex.ofReal_injective e2]
    constructor
    · simp [vTree]
    · simp [counterTerm]
  constructor
  · have e : treeValues (C2HDM.treeSimplified p) (C2HDM.tree p) points =
        (points.map fun φ => vTree true (C2HDM.treeSimplified p) (C2HDM.tree p) φ 0 false).map
          fun a => (Flt.fin a, Flt.fin a) := by
      rw [treeValues, List.map_map]
      exact List.map_congr_left fun φ hφ => by rw [(key φ hφ).1]; rfl
    rw [e]
    exact (C106_simplified_equal _).1
  · have e : counterValues (C2HDM.counterSimplified c) (C2HDM.counter c) points =
        (points.map fun φ => counterTerm true (C2HDM.counterSimplified c) (C2HDM.counter c) φ 0 false).map
          fun a => (Flt.fin a, Flt.fin a) := by
      rw [counterValues, List.map_map]
      exact List.map_congr_left fun φ hφ => by rw [(key φ hφ).2]; rfl
    rw [e]
    exact (C106_simplified_equal _).2

/-- Those of CP in the Dark too. -/
theorem C106_cpinthedark_simplified (p : CPintheDark.Par ℝ) (c : CPintheDark.CT ℝ)
    (points : List (FVec 9 ℝ)) (h : ∀ φ ∈ points, φ 0 = 0 ∧ φ 1 = 0 ∧ φ 3 = 0 ∧ φ 5 = 0) :
    treeSimplified (treeValues (CPintheDark.treeSimplified p) (CPintheDark.tree p) points) = .pass ∧
      counterSimplified (counterValues (CPintheDark.counterSimplified c) (CPintheDark.counter c) points) =
        .pass := by
  have key : ∀ φ ∈ points,
      vTree true (CPintheDark.treeSimplified p) (CPintheDark.tree p) φ 0 true =
          vTree true (CPintheDark.treeSimplified p) (CPintheDark.tree p) φ 0 false ∧
        counterTerm true (CPintheDark.counterSimplified c) (CPintheDark.counter c) φ 0 true =
          counterTerm true (CPintheDark.counterSimplified c) (CPintheDark.counter c) φ 0 false := by
    intro φ hφ
    obtain ⟨h0, h1, h3, h5⟩ := h φ hφ
    obtain ⟨e1, e2⟩ := CPintheDark.C74_cpinthedark_simplified p c φ h0 h1 h3 h5
    rw [← CPintheDark.C74_cpinthedark_potential p φ (CPintheDark.treeSimplified p) true] at e1
    rw [← CPintheDark.C74_cpinthedark_counterterms c φ (CPintheDark.counterSimplified c) true] at e2
    rw [Complex.ofReal_injective e1, Complex.ofReal_injective e2]
    constructor
    · simp [vTree]
    · simp [counterTerm]
  constructor
  · have e : treeValues (CPintheDark.treeSimplified p) (CPintheDark.tree p) points =
        (points.map fun φ => vTree true (CPintheDark.treeSimplified p) (CPintheDark.tree p) φ 0 false).map
          fun a => (Flt.fin a, Flt.fin a) := by
      rw [treeValues, List.map_map]
      exact List.map_congr_left fun φ hφ => by rw [(key φ hφ).1]; rfl
    rw [e]
    exact (C106_simplified_equal _).1
  · have e : counterValues (CPintheDark.counterSimplified c) (CPintheDark.counter c) points =
        (points.map fun φ => counterTerm true (CPintheDark.counterSimplified c) (CPintheDark.counter c) φ
          0 false).map fun a => (Flt.fin a, Flt.fin a) := by
      rw [counterValues, List.map_map]
      exact List.map_congr_left fun φ hφ => by rw [(key φ hφ).2]; rfl
    rw [e]
    exact (C106_simplified_equal _).2

/-! ### The CKM matrix -/

/-- `CheckCKMUnitarity`, ModelTestfunctions.cpp:646-678: the norm of `V† V - 1` is the square root of the sum of
the squares of its entries. -/
noncomputable def ckmUnitarity (V : Matrix (Fin 3) (Fin 3) ℂ) : TestResult :=
  open Classical in
  if √ (∑ i, ∑ j, ‖(Vᴴ * V - 1) i j‖ ^ 2) > 1 / 10 ^ 5 then .fail else .pass

/-- If the check passes, then every entry of `V† V` is that of the identity up to `1e-5`. -/
theorem C106_ckm_close (V : Matrix (Fin 3) (Fin 3) ℂ) (h : ckmUnitarity V = .pass) (i j : Fin 3) :
    ‖(Vᴴ * V) i j - (if i = j then 1 else 0)‖ ≤ 1 / 10 ^ 5 := by
  unfold ckmUnitarity at h
  split_ifs at h with hlt
  rw [not_lt] at hlt
  refine le_trans ?_ hlt
  refine Real.le_sqrt_of_sq_le ?_
  have e : (Vᴴ * V) i j - (if i = j then 1 else 0) = (Vᴴ * V - 1) i j := by
    rw [Matrix.sub_apply, Matrix.one_apply]
  rw [e]
  refine le_trans ?_ (Finset.single_le_sum (f := fun i => ∑ j, ‖(Vᴴ * V - 1) i j‖ ^ 2)
    (fun i _ => by positivity) (Finset.mem_univ i))
  exact Finset.single_le_sum (f := fun j => ‖(Vᴴ * V - 1) i j‖ ^ 2)
    (fun j _ => by positivity) (Finset.mem_univ j)

/-- The matrix of the program passes, for all values of the parameters of Wolfenstein. -/
theorem C106_ckm (x : Numbers) : ckmUnitarity (getSMConstants x).ckm = .pass := by
  have h := C79_ckm_unitary x
  rw [mem_unitaryGroup_iff'] at h
  rw [star_eq_conjTranspose] at h
  unfold ckmUnitarity
  rw [h, if_neg]
  simp

/-- The hypotheses are met. -/
example : 0 < numbers.GF ∧ 1 / 10 ^ 5 ≤ numbers.mW ^ 2 ∧ numbers.mW ^ 2 ≤ numbers.mZ ^ 2 ∧
    ∃ S : Solver, S.Correct := by
  refine ⟨?_, ?_, ?_, solver_exists⟩ <;> unfold numbers <;> norm_num

end Verif.Check
