import Verif.Weinberg.Props
import Verif.Weinberg.Models

/-!
# The renormalisation of the models (C83)

The vacuum and the scalar masses at one loop are those of the tree-level potential: the counterterms that
the program calculates from `WeinbergFirstDerivative` and `WeinbergSecondDerivative` cancel the derivatives
of `V1Loop`.
-/

namespace Verif.Weinberg

open Verif.Potential Verif.Invariance Verif.Yukawa Verif.Lagrangian Verif.Lagrangian.Spec Verif.Debye Matrix
open Spec (Regular Apart Clean Lawful Uncut)
open scoped BigOperators

/-- What the program calculates are the derivatives of `V1Loop`. -/
theorem computed {n : Nat} {S : Solver} {X : Vectors} {T : Tensors n} {v : Fin n → ℝ} (hS : S.Correct)
    (hX : X.Correct S) (hT : Lawful T) {scale : ℝ} (hs : 0 < scale) (JB JF : Thermal)
    (hm : Regular (1 / 10 ^ 4) T v) (hc : Clean X T v) (hd : Apart T v)
    (hu : Uncut (physicalCouplings S X T v) scale) {N : Fin n → ℝ} {H : Fin n → Fin n → ℝ}
    (hN : weinbergFirst (some (physicalCouplings S X T v)) scale = .ok fun k => .fin (N k))
    (hH : weinbergSecond (some (physicalCouplings S X T v)) scale = .ok fun k l => .fin (H k l)) :
    Expansion (fun φ => v1Loop (T.spectra S scale JB JF) φ 0 0) v N H := by
  obtain ⟨N', H', hE, h1, h2, -⟩ := C83_exact hS hX hT (by norm_num) hs hm hc hd hu
  rw [hN] at h1
  rw [hH] at h2
  refine hE.congr (funext fun φ => (C83_loop hS hT scale JB JF φ).symm) (fun k => ?_) fun k l => ?_
  · have := congrFun (Outcome.ok.inj h1) k
    exact (Flt.fin.inj this).symm
  · have := congrFun (congrFun (Outcome.ok.inj h2) k) l
    exact (Flt.fin.inj this).symm

/-- Standard model. -/
theorem C83_sm_renormalised {S : Solver} {X : Vectors} (hS : S.Correct) (hX : X.Correct S)
    (p : SM.Par ℝ) (g gs : ℝ) (c : Constants)
    (hV : c.ckm ∈ unitaryGroup (Fin 3) ℂ) (v : ℝ) (force : Bool) (D : Matrix (Fin 4) (Fin 4) ℝ)
    (hD : calculateDebyeGauge 4 4 (SM.gauge g gs) none = some D)
    {scale : ℝ} (hs : 0 < scale) (JB JF : Thermal) (v0 : ℝ) (h0 : v0 ≠ 0)
    (hm : Regular (1 / 10 ^ 4) (smTensors p g gs c v force D) (SM.vevTree v0))
    (hc : Clean X (smTensors p g gs c v force D) (SM.vevTree v0))
    (hd : Apart (smTensors p g gs c v force D) (SM.vevTree v0))
    (hu : Uncut (physicalCouplings S X (smTensors p g gs c v force D) (SM.vevTree v0)) scale)
    (N : Fin 4 → ℝ) (H : Fin 4 → Fin 4 → ℝ)
    (h1 : weinbergFirst (some (physicalCouplings S X (smTensors p g gs c v force D) (SM.vevTree v0)))
      scale = .ok fun k => .fin (N k))
    (h2 : weinbergSecond (some (physicalCouplings S X (smTensors p g gs c v force D) (SM.vevTree v0)))
      scale = .ok fun k l => .fin (H k l)) :
    Expansion ((smTensors p g gs c v force D).effective
      (SM.counter (SM.calcCT v0 N H)) none S scale JB JF 0) (SM.vevTree v0)
      (grad (SM.tree p) (SM.vevTree v0)) (hessianCT (SM.tree p) (SM.vevTree v0)) := by
  have hE := computed hS hX (sm_lawful p g gs c v force D) hs JB JF hm hc hd hu h1 h2
  obtain ⟨k1, k2, -⟩ := C82_sm_cancel hS p g gs c hV v force D hD scale JB JF v0 h0 N H hE
  exact renormalised _ (SM.C80_sm_tree_symmetric p) (SM.C80_sm_counter_symmetric _) S
    scale JB JF hE k1 k2

/-- Standard model with a complex singlet, with the conditions of C76. -/
theorem C83_cxsm_renormalised_partial {S : Solver} {X : Vectors} (hS : S.Correct) (hX : X.Correct S)
    (p : CxSM.Par) (g gs : ℝ) (c : Constants)
    (hV : c.ckm ∈ unitaryGroup (Fin 3) ℂ) (v : ℝ) (force : Bool) (D : Matrix (Fin 4) (Fin 4) ℝ)
    (hD : calculateDebyeGauge 4 6 (CxSM.gauge g gs) none = some D)
    {scale : ℝ} (hs : 0 < scale) (JB JF : Thermal) (vh vs va ima1 : ℝ) (h0 : vh ≠ 0)
    (hm : Regular (1 / 10 ^ 4) (cxsmTensors p g gs c v force D) (CxSM.vevTree vh vs va))
    (hc : Clean X (cxsmTensors p g gs c v force D) (CxSM.vevTree vh vs va))
    (hd : Apart (cxsmTensors p g gs c v force D) (CxSM.vevTree vh vs va))
    (hu : Uncut (physicalCouplings S X (cxsmTensors p g gs c v force D) (CxSM.vevTree vh vs va)) scale)
    (N : Fin 6 → ℝ) (H : Fin 6 → Fin 6 → ℝ)
    (h1 : weinbergFirst (some (physicalCouplings S X (cxsmTensors p g gs c v force D) (CxSM.vevTree vh vs va)))
      scale = .ok fun k => .fin (N k))
    (h2 : weinbergSecond (some (physicalCouplings S X (cxsmTensors p g gs c v force D) (CxSM.vevTree vh vs va)))
      scale = .ok fun k l => .fin (H k l))
    (hN : ∀ i, N i = 0 ∨ 1 / 10 ^ 5 < |N i|) (hH : ∀ i j, H i j = 0 ∨ 1 / 10 ^ 5 < |H i j|)
    (hF : ∀ x ∈ (CxSM.formulas vh vs va ima1 N H).entries, x = 0 ∨ 1 / 10 ^ 5 < |x|)
    (hmix : H 3 4 * va = H 3 5 * vs) (hzero : vs = 0 → va = 0 → H 3 4 = 0 ∧ H 3 5 = 0) :
    Expansion ((cxsmTensors p g gs c v force D).effective
      (CxSM.counter (CxSM.calcCT vh vs va ima1 N H)) none S scale JB JF 0) (CxSM.vevTree vh vs va)
      (grad (CxSM.tree p) (CxSM.vevTree vh vs va)) (hessianCT (CxSM.tree p) (CxSM.vevTree vh vs va)) := by
  have hE := computed hS hX (cxsm_lawful p g gs c v force D) hs JB JF hm hc hd hu h1 h2
  obtain ⟨k1, k2, -⟩ := C82_cxsm_cancel_partial hS p g gs c hV v force D hD scale JB JF vh vs va ima1 h0 N H hE hN hH hF hmix hzero
  exact renormalised _ (CxSM.C80_cxsm_tree_symmetric p) (CxSM.C80_cxsm_counter_symmetric _) S
    scale JB JF hE k1 k2

/-- Real two Higgs doublet model, if no entry of the Hesse matrix is smaller than `10⁻³`. -/
theorem C83_r2hdm_renormalised_partial {S : Solver} {X : Vectors} (hS : S.Correct) (hX : X.Correct S)
    (p : R2HDM.Par ℝ) (g gs : ℝ)
    (c : Constants) (hV : c.ckm ∈ unitaryGroup (Fin 3) ℂ) (cosBeta sinBeta : ℝ) (type : Int)
    (ht : TwoHDM.Documented type) (force : Bool) (D : Matrix (Fin 4) (Fin 4) ℝ)
    (hD : calculateDebyeGauge 4 8 (R2HDM.gauge g gs) (some (gaugeSimplified g gs)) = some D)
    {scale : ℝ} (hs : 0 < scale) (JB JF : Thermal) (v1 v2 : ℝ) (n1 : v1 ≠ 0) (n2 : v2 ≠ 0)
    (hm : Regular (1 / 10 ^ 4) (r2hdmTensors p g gs c cosBeta sinBeta type force D) (R2HDM.vevTree v1 v2))
    (hc : Clean X (r2hdmTensors p g gs c cosBeta sinBeta type force D) (R2HDM.vevTree v1 v2))
    (hd : Apart (r2hdmTensors p g gs c cosBeta sinBeta type force D) (R2HDM.vevTree v1 v2))
    (hu : Uncut (physicalCouplings S X (r2hdmTensors p g gs c cosBeta sinBeta type force D) (R2HDM.vevTree v1 v2)) scale)
    (N : Fin 8 → ℝ) (H : Fin 8 → Fin 8 → ℝ)
    (h1 : weinbergFirst (some (physicalCouplings S X (r2hdmTensors p g gs c cosBeta sinBeta type force D) (R2HDM.vevTree v1 v2)))
      scale = .ok fun k => .fin (N k))
    (h2 : weinbergSecond (some (physicalCouplings S X (r2hdmTensors p g gs c cosBeta sinBeta type force D) (R2HDM.vevTree v1 v2)))
      scale = .ok fun k l => .fin (H k l))
    (hcut : ∀ i j, H i j = 0 ∨ 1 / 1000 < |H i j|) :
    Expansion ((r2hdmTensors p g gs c cosBeta sinBeta type force D).effective
      (R2HDM.counter (R2HDM.calcCT v1 v2 N H)) none S scale JB JF 0) (R2HDM.vevTree v1 v2)
      (grad (R2HDM.tree p) (R2HDM.vevTree v1 v2)) (hessianCT (R2HDM.tree p) (R2HDM.vevTree v1 v2)) := by
  have hE := computed hS hX (r2hdm_lawful p g gs c cosBeta sinBeta type force D) hs JB JF hm hc hd hu h1 h2
  obtain ⟨k1, k2, -⟩ := C82_r2hdm_cancel_partial hS p g gs c hV cosBeta sinBeta type ht force D hD scale JB JF v1 v2 n1 n2 N H hE hcut
  exact renormalised _ (R2HDM.C80_r2hdm_tree_symmetric p) (R2HDM.C80_r2hdm_counter_symmetric _) S
    scale JB JF hE k1 k2

/-- Complex two Higgs doublet model (with the explicit potentials). -/
theorem C83_c2hdm_renormalised {S : Solver} {X : Vectors} (hS : S.Correct) (hX : X.Correct S)
    (p : C2HDM.Par ℝ) (g gs : ℝ)
    (c : Constants) (hV : c.ckm ∈ unitaryGroup (Fin 3) ℂ) (cosBeta sinBeta : ℝ) (type : Int)
    (ht : TwoHDM.Documented type) (force : Bool) (D : Matrix (Fin 4) (Fin 4) ℝ)
    (hD : calculateDebyeGauge 4 8 (C2HDM.gauge g gs) (some (gaugeSimplified g gs)) = some D)
    {scale : ℝ} (hs : 0 < scale) (JB JF : Thermal) (v1 v2 : ℝ) (n1 : v1 ≠ 0) (n2 : v2 ≠ 0)
    (hm : Regular (1 / 10 ^ 4) (c2hdmTensors p g gs c cosBeta sinBeta type force D) (C2HDM.vevTree v1 v2))
    (hc : Clean X (c2hdmTensors p g gs c cosBeta sinBeta type force D) (C2HDM.vevTree v1 v2))
    (hd : Apart (c2hdmTensors p g gs c cosBeta sinBeta type force D) (C2HDM.vevTree v1 v2))
    (hu : Uncut (physicalCouplings S X (c2hdmTensors p g gs c cosBeta sinBeta type force D) (C2HDM.vevTree v1 v2)) scale)
    (N : Fin 8 → ℝ) (H : Fin 8 → Fin 8 → ℝ)
    (h1 : weinbergFirst (some (physicalCouplings S X (c2hdmTensors p g gs c cosBeta sinBeta type force D) (C2HDM.vevTree v1 v2)))
      scale = .ok fun k => .fin (N k))
    (h2 : weinbergSecond (some (physicalCouplings S X (c2hdmTensors p g gs c cosBeta sinBeta type force D) (C2HDM.vevTree v1 v2)))
      scale = .ok fun k l => .fin (H k l)) :
    Expansion ((c2hdmTensors p g gs c cosBeta sinBeta type force D).effective
      (C2HDM.counter (C2HDM.calcCT v1 v2 N H)) none S scale JB JF 0) (C2HDM.vevTree v1 v2)
      (grad (C2HDM.tree p) (C2HDM.vevTree v1 v2)) (hessianCT (C2HDM.tree p) (C2HDM.vevTree v1 v2)) := by
  have hE := computed hS hX (c2hdm_lawful p g gs c cosBeta sinBeta type force D) hs JB JF hm hc hd hu h1 h2
  obtain ⟨k1, k2, -⟩ := C82_c2hdm_cancel hS p g gs c hV cosBeta sinBeta type ht force D hD scale JB JF v1 v2 n1 n2 N H hE
  exact renormalised _ (C2HDM.C80_c2hdm_tree_symmetric p) (C2HDM.C80_c2hdm_counter_symmetric _) S
    scale JB JF hE k1 k2

set_option maxRecDepth 4000 in
/-- Next-to-minimal two Higgs doublet model. -/
theorem C83_n2hdm_renormalised {S : Solver} {X : Vectors} (hS : S.Correct) (hX : X.Correct S)
    (p : N2HDM.Par ℝ) (g gs : ℝ)
    (c : Constants) (hV : c.ckm ∈ unitaryGroup (Fin 3) ℂ) (cosBeta sinBeta : ℝ) (type : Int)
    (ht : TwoHDM.Documented type) (force : Bool) (D : Matrix (Fin 4) (Fin 4) ℝ)
    (hD : calculateDebyeGauge 4 9 (N2HDM.gauge g gs) (some (gaugeSimplified g gs)) = some D)
    {scale : ℝ} (hs : 0 < scale) (JB JF : Thermal) (v1 v2 vs : ℝ) (n1 : v1 ≠ 0) (n2 : v2 ≠ 0)
    (n3 : vs ≠ 0)
    (hm : Regular (1 / 10 ^ 4) (n2hdmTensors p g gs c cosBeta sinBeta type force D) (N2HDM.vevTree v1 v2 vs))
    (hc : Clean X (n2hdmTensors p g gs c cosBeta sinBeta type force D) (N2HDM.vevTree v1 v2 vs))
    (hd : Apart (n2hdmTensors p g gs c cosBeta sinBeta type force D) (N2HDM.vevTree v1 v2 vs))
    (hu : Uncut (physicalCouplings S X (n2hdmTensors p g gs c cosBeta sinBeta type force D) (N2HDM.vevTree v1 v2 vs)) scale)
    (N : Fin 9 → ℝ) (H : Fin 9 → Fin 9 → ℝ)
    (h1 : weinbergFirst (some (physicalCouplings S X (n2hdmTensors p g gs c cosBeta sinBeta type force D) (N2HDM.vevTree v1 v2 vs)))
      scale = .ok fun k => .fin (N k))
    (h2 : weinbergSecond (some (physicalCouplings S X (n2hdmTensors p g gs c cosBeta sinBeta type force D) (N2HDM.vevTree v1 v2 vs)))
      scale = .ok fun k l => .fin (H k l)) :
    ∃ ct, N2HDM.calcCT v1 v2 vs N H = .ok ct ∧ Expansion ((n2hdmTensors p g gs c cosBeta sinBeta type force D).effective
      (N2HDM.counter ct) none S scale JB JF 0) (N2HDM.vevTree v1 v2 vs)
      (grad (N2HDM.tree p) (N2HDM.vevTree v1 v2 vs)) (hessianCT (N2HDM.tree p) (N2HDM.vevTree v1 v2 vs)) := by
  have hE := computed hS hX (n2hdm_lawful p g gs c cosBeta sinBeta type force D) hs JB JF hm hc hd hu h1 h2
  obtain ⟨ct, k0, k1, k2, -⟩ := C82_n2hdm_cancel hS p g gs c hV cosBeta sinBeta type ht force D hD scale JB JF v1 v2 vs n1 n2 n3 N H hE
  exact ⟨ct, k0, renormalised _ (N2HDM.C80_n2hdm_tree_symmetric p) (N2HDM.C80_n2hdm_counter_symmetric ct) S
    scale JB JF hE k1 k2⟩

/-- CP in the Dark (with the explicit potentials). -/
theorem C83_cpinthedark_renormalised {S : Solver} {X : Vectors} (hS : S.Correct) (hX : X.Correct S)
    (p : CPintheDark.Par ℝ) (g gs : ℝ) (c : Constants)
    (hV : c.ckm ∈ unitaryGroup (Fin 3) ℂ) (v : ℝ) (force : Bool) (D : Matrix (Fin 4) (Fin 4) ℝ)
    (hD : calculateDebyeGauge 4 9 (CPintheDark.gauge g gs) none = some D)
    {scale : ℝ} (hs : 0 < scale) (JB JF : Thermal) (v1 : ℝ) (n1 : v1 ≠ 0)
    (hm : Regular (1 / 10 ^ 4) (darkTensors p g gs c v force D) (CPintheDark.vevTree v1))
    (hc : Clean X (darkTensors p g gs c v force D) (CPintheDark.vevTree v1))
    (hd : Apart (darkTensors p g gs c v force D) (CPintheDark.vevTree v1))
    (hu : Uncut (physicalCouplings S X (darkTensors p g gs c v force D) (CPintheDark.vevTree v1)) scale)
    (N : Fin 9 → ℝ) (H : Fin 9 → Fin 9 → ℝ)
    (h1 : weinbergFirst (some (physicalCouplings S X (darkTensors p g gs c v force D) (CPintheDark.vevTree v1)))
      scale = .ok fun k => .fin (N k))
    (h2 : weinbergSecond (some (physicalCouplings S X (darkTensors p g gs c v force D) (CPintheDark.vevTree v1)))
      scale = .ok fun k l => .fin (H k l)) :
    Expansion ((darkTensors p g gs c v force D).effective
      (CPintheDark.counter (CPintheDark.calcCT v1 N H)) none S scale JB JF 0) (CPintheDark.vevTree v1)
      (grad (CPintheDark.tree p) (CPintheDark.vevTree v1)) (hessianCT (CPintheDark.tree p) (CPintheDark.vevTree v1)) := by
  have hE := computed hS hX (cpinthedark_lawful p g gs c v force D) hs JB JF hm hc hd hu h1 h2
  obtain ⟨k1, k2, -⟩ := C82_cpinthedark_cancel hS p g gs c hV v force D hD scale JB JF v1 n1 N H hE
  exact renormalised _ (CPintheDark.C80_cpinthedark_tree_symmetric p) (CPintheDark.C80_cpinthedark_counter_symmetric _) S
    scale JB JF hE k1 k2

end Verif.Weinberg
