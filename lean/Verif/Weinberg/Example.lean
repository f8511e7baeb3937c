import Verif.Weinberg.StandardModel

/-!
# A model which meets all conditions of the renormalisation theorems (C83)

The standard model with massless fermions and without hypercharge: Higgs boson and gauge bosons have the
squared mass 1, and the renormalisation scale is 1.
-/

set_option linter.unusedSimpArgs false

namespace Verif.Weinberg.Example

open Verif.Potential Verif.Invariance Verif.Yukawa Verif.Lagrangian Verif.Lagrangian.Spec Verif.Debye Matrix
open Spec (Regular Apart Clean Lawful Uncut)
open scoped BigOperators

/-- Other eigenvectors for one matrix. -/
theorem change_real {S : Solver} {X : Vectors} (hX : X.Correct S) {m : Nat} (M U : Matrix (Fin m) (Fin m) ℝ)
    (hU : Diag M U fun i => nth (S.real M) i) : ∃ X' : Vectors, X'.Correct S ∧ X'.real M = U ∧
      (∀ M' : Matrix (Fin m) (Fin m) ℝ, M' ≠ M → X'.real M' = X.real M') ∧
      ∀ {k : Nat} (M' : Matrix (Fin k) (Fin k) ℂ), X'.complex M' = X.complex M' := by
  classical
  refine ⟨⟨fun {k} M' => if h : k = m then if (h ▸ M') = M then h ▸ U else X.real M' else X.real M',
    X.complex⟩, ⟨fun {k} M' hM' => ?_, hX.complex⟩, ?_, fun M' h => ?_, fun M' => rfl⟩
  · dsimp only
    by_cases h : k = m
    · subst h
      rw [dif_pos rfl]
      by_cases h' : M' = M
      · rw [if_pos h', h']
        exact hU
      · rw [if_neg h']
        exact hX.real M' hM'
    · rw [dif_neg h]
      exact hX.real M' hM'
  · simp
  · simp [h]

noncomputable section

/-- The parameters. -/
def par : SM.Par ℝ := ⟨-1 / 2, 1 / 8⟩

/-- Massless fermions. -/
def constants : Constants :=
  { getSMConstants numbers with
    mUp := 0, mCharm := 0, mTop := 0, mDown := 0, mStrange := 0, mBottom := 0, mElectron := 0, mMu := 0,
    mTau := 0 }

def tensors (D : Matrix (Fin 4) (Fin 4) ℝ) : Tensors 4 := smTensors par 1 0 constants 2 false D

theorem quark_zero : Yukawa.SM.quarkTensor constants 2 = fun _ => 0 := by
  funext q
  rw [Yukawa.SM.quarkTensor, assign_eq _ (Yukawa.SM.quarks_distinct _ _)]
  simp [sumT, Yukawa.SM.quarks, constants]

theorem lepton_zero : Yukawa.SM.leptonTensor constants 2 = fun _ => 0 := by
  funext q
  rw [Yukawa.SM.leptonTensor, assign_eq _ (Yukawa.SM.leptons_distinct _ _)]
  simp [sumT, Yukawa.SM.leptons, constants]

theorem look_cast (w : Assign ℚ) (q : List Nat) :
    look (w.map fun e => (e.1, (e.2 : ℝ))) q = ((look w q : ℚ) : ℝ) := by
  induction w with
  | nil => simp [look]
  | cons e w ih =>
    obtain ⟨k, x⟩ := e
    simp only [look, List.map_cons, List.lookup] at ih ⊢
    cases h : q == k
    · exact ih
    · simp

/-- The quartic couplings. -/
theorem quartic (i j k l : Fin 4) : (SM.tree par).L4 i j k l =
    1 / 4 * ((if i = j ∧ k = l then 1 else 0) + (if i = k ∧ j = l then 1 else 0) +
      if i = l ∧ j = k then 1 else 0) := by
  have e : SM.l4 par = (SM.l4 (⟨-1 / 2, 1 / 8⟩ : SM.Par ℚ)).map fun e => (e.1, (e.2 : ℝ)) := by
    simp [SM.l4, par]
  have h : ∀ i j k l : Fin 4, lookSym (SM.l4 (⟨-1 / 2, 1 / 8⟩ : SM.Par ℚ))
      [(i : Nat), (j : Nat), (k : Nat), (l : Nat)] =
      1 / 4 * ((if i = j ∧ k = l then 1 else 0) + (if i = k ∧ j = l then 1 else 0) +
      if i = l ∧ j = k then 1 else 0) := by decide +kernel
  rw [SM.tree_eq]
  show lookSym (SM.l4 par) _ = _
  rw [lookSym, e, look_cast, ← lookSym, h]
  split_ifs <;> norm_num

theorem cubic (i j k : Fin 4) : (SM.tree par).L3 i j k = 0 := by
  rw [SM.tree_eq]
  rfl

theorem vacuum (i : Fin 4) : SM.vevTree (2 : ℝ) i = if i = 2 then 2 else 0 := by
  fin_cases i <;> rfl

theorem gauge_tensor (a b i j : Fin 4) : SM.gauge (1 : ℝ) 0 [(a : Nat), (b : Nat), (i : Nat), (j : Nat)] =
    if a = b ∧ i = j ∧ a ≠ 3 then 1 / 2 else 0 := by
  have e : SM.g2h2 (1 : ℝ) 0 = (SM.g2h2 (1 : ℚ) 0).map fun e => (e.1, (e.2 : ℝ)) := by
    simp [SM.g2h2]
  have h : ∀ a b i j : Fin 4, look (SM.g2h2 (1 : ℚ) 0) [(a : Nat), (b : Nat), (i : Nat), (j : Nat)] =
      if a = b ∧ i = j ∧ a ≠ 3 then 1 / 2 else 0 := by decide +kernel
  rw [SM.gauge, assign_look _ (SM.g2h2_distinct _ _), e, look_cast, h]
  split_ifs <;> norm_num

theorem higgs_matrix : massHiggs (SM.tree par) (SM.vevTree 2) = diagonal ![0, 0, 1, 0] := by
  ext i j
  have h : massHiggs (SM.tree par) (SM.vevTree 2) i j = hessianCT (SM.tree par) (SM.vevTree 2) i j := rfl
  rw [h, SM.tree_hess, diagonal_apply]
  fin_cases i <;> fin_cases j <;> simp [par] <;> norm_num

theorem gauge_matrix : massGauge (SM.gauge 1 0) (SM.vevTree 2) = diagonal ![1, 1, 1, 0] := by
  ext a b
  simp only [massGauge, gauge_tensor, vacuum]
  fin_cases a <;> fin_cases b <;> simp [Fin.sum_univ_four]

theorem sorted_roots {l : List ℝ} {d : Fin 4 → ℝ} (h1 : l.Pairwise (· ≤ ·))
    (h2 : (l : Multiset ℝ) = (diagonal d).charpoly.roots) {l' : List ℝ} (h3 : l'.Pairwise (· ≤ ·))
    (h4 : l'.Perm [d 0, d 1, d 2, d 3]) : l = l' := by
  refine sorted_unique h1 h3 ?_
  rw [h2, roots_of_diag, Multiset.coe_eq_coe.2 h4]
  rfl

/-- The matrix which exchanges two components. -/
def exchange (τ : Fin 4 → Fin 4) : Matrix (Fin 4) (Fin 4) ℝ := of fun i j => if i = τ j then 1 else 0

theorem diag_exchange (τ : Fin 4 → Fin 4) (hτ : ∀ i, τ (τ i) = i) (d : Fin 4 → ℝ) :
    Diag (diagonal d) (exchange τ) (fun i => d (τ i)) := by
  have inj : ∀ i j, τ i = τ j ↔ i = j := fun i j => ⟨fun h => by rw [← hτ i, h, hτ], fun h => by rw [h]⟩
  refine ⟨?_, ?_, ?_⟩
  · ext i j
    rw [Matrix.mul_apply, Finset.sum_eq_single (τ i)]
    · simp [exchange, inj, one_apply]
    · intro b _ hb
      simp [exchange, hb]
    · simp
  · ext i j
    rw [Matrix.mul_apply, Finset.sum_eq_single (τ i)]
    · simp [exchange, hτ, one_apply, eq_comm]
    · intro b _ hb
      have : i ≠ τ b := fun h => hb (by rw [h, hτ])
      simp [exchange, this]
    · simp
  · ext i j
    rw [Matrix.mul_apply, Finset.sum_eq_single (τ i)]
    · by_cases h : i = j
      · subst h
        simp [exchange, hτ]
      · simp [exchange, hτ, h, Ne.symm h]
    · intro b _ hb
      have : i ≠ τ b := fun h => hb (by rw [h, hτ])
      simp [exchange, this]
    · simp

/-- The Higgs boson is the last scalar. -/
def scalarOrder : Fin 4 → Fin 4 := ![0, 1, 3, 2]

/-- The photon is the first gauge boson. -/
def gaugeOrder : Fin 4 → Fin 4 := ![3, 1, 2, 0]

theorem rotate3_exchange {A R : Matrix (Fin 4) (Fin 4) ℝ} {α ρ : Fin 4 → Fin 4}
    (hA : ∀ i j, A i j = if j = α i then 1 else 0) (hR : ∀ i j, R i j = if j = ρ i then 1 else 0)
    (L : Fin 4 → Fin 4 → Fin 4 → ℝ) (a b i : Fin 4) : rotate3 A R L a b i = L (α a) (α b) (ρ i) := by
  simp [rotate3, hA, hR]

theorem rotate4_exchange {A R : Matrix (Fin 4) (Fin 4) ℝ} {α ρ : Fin 4 → Fin 4}
    (hA : ∀ i j, A i j = if j = α i then 1 else 0) (hR : ∀ i j, R i j = if j = ρ i then 1 else 0)
    (L : Fin 4 → Fin 4 → Fin 4 → Fin 4 → ℝ) (a b i j : Fin 4) :
    rotate4 A R L a b i j = L (α a) (α b) (ρ i) (ρ j) := by
  simp [rotate4, hA, hR]

/-- The couplings of the mass eigenstates. -/
structure Explicit (p : Physical 4) : Prop where
  massHiggs : ∀ i, p.massHiggs i = if i = 3 then 1 else 0
  massGauge : ∀ i, p.massGauge i = if i = 0 then 0 else 1
  rot : ∀ i j, p.rot i j = if j = scalarOrder i then 1 else 0
  higgs3 : ∀ a b i, p.higgs3 a b i =
    1 / 2 * ((if a = b ∧ i = 3 then 1 else 0) + (if a = i ∧ b = 3 then 1 else 0) +
      if a = 3 ∧ b = i then 1 else 0)
  higgs4 : ∀ a i j, p.higgs4 a a i j = 1 / 4 * ((if i = j then 1 else 0) + (if a = i ∧ a = j then 2 else 0))
  gauge3 : ∀ a b i, p.gauge3 a b i = if a = b ∧ a ≠ 0 ∧ i = 3 then 1 else 0
  gauge4 : ∀ a i j, p.gauge4 a a i j = if a ≠ 0 ∧ i = j then 1 / 2 else 0
  quark3 : ∀ a b i, p.quark3 a b i = 0
  quark4 : ∀ a b i j, p.quark4 a b i j = 0
  lepton3 : ∀ a b i, p.lepton3 a b i = 0
  lepton4 : ∀ a b i j, p.lepton4 a b i j = 0

theorem fbase_zero : fbaseValue 1 0 0 = 1 := by simp [fbaseValue, fbase]

theorem fbase_one : fbaseValue 1 1 1 = 1 := by
  have h1 : ¬ ((1 : ℝ) < 0) := by norm_num
  have h : ¬ ((10 : ℝ) ^ 5 < 0) := by norm_num
  simp [fbaseValue, fbase, fk, lg, h1, h]

theorem fbase_left : fbaseValue 1 0 1 = 0 := by
  have h : ((10 : ℝ) ^ 5)⁻¹ < 1 := by norm_num
  have h1 : ¬ ((1 : ℝ) < 0) := by norm_num
  simp [fbaseValue, fbase, fk, lg, h, h1]

theorem fbase_right : fbaseValue 1 1 0 = 0 := by
  have h : ((10 : ℝ) ^ 5)⁻¹ < 1 := by norm_num
  have h1 : ¬ ((1 : ℝ) < 0) := by norm_num
  simp [fbaseValue, fbase, fk, lg, h, h1]

theorem storage_value {p : Physical 4} (h : Explicit p) (i j : Fin 4) :
    storage p 1 i j = if i = j then (if i = 3 then 15 / 8 else -9 / 8) else 0 := by
  simp only [storage, secondSum, h.massHiggs, h.massGauge, h.higgs3, h.higgs4, h.gauge3, h.gauge4, h.quark3,
    h.quark4, h.lepton3, h.lepton4, Fin.sum_univ_four, cCWcb, cCWcbGB]
  fin_cases i <;> fin_cases j <;>
    simp [fbase_zero, fbase_one, fbase_left, fbase_right] <;> norm_num

theorem firstRaw_value {p : Physical 4} (h : Explicit p) (k : Fin 4) :
    firstRaw p 1 k = (if k = 2 then -9 / 4 else 0) * (1 / (16 * Real.pi * Real.pi)) := by
  simp only [firstRaw, firstSum, h.massHiggs, h.massGauge, h.rot, h.higgs3, h.gauge3, h.quark3,
    h.lepton3, Fin.sum_univ_four, cCWcb, cCWcbGB]
  fin_cases k <;> simp [scalarOrder]  <;> norm_num

theorem pi_bounds : 0 < 1 / (16 * Real.pi * Real.pi) ∧ 1 / 10 ^ 3 ≤ 1 / (16 * Real.pi * Real.pi) := by
  have h0 := Real.pi_pos
  have h := Real.pi_le_four
  refine ⟨by positivity, one_div_le_one_div_of_le (by positivity) ?_⟩
  nlinarith

theorem uncut {p : Physical 4} (h : Explicit p) : Uncut p 1 := by
  obtain ⟨h0, h1⟩ := pi_bounds
  have h2 : ∀ x : ℝ, 1 ≤ |x| → 1 / 10 ^ 10 ≤ |x * (1 / (16 * Real.pi * Real.pi))| := fun x hx => by
    rw [abs_mul, abs_of_pos h0]
    refine le_trans (by norm_num : (1 : ℝ) / 10 ^ 10 ≤ 1 * (1 / 10 ^ 3)) ?_
    exact mul_le_mul hx h1 (by norm_num) (by positivity)
  have hst : ∀ i j, storage p 1 i j = 0 ∨ 1 / 10 ^ 10 ≤ |storage p 1 i j| := fun i j => by
    rw [storage_value h]
    split_ifs
    · right; norm_num
    · right; norm_num
    · left; rfl
  have hcut : ∀ i j, cutSmall (storage p 1 i j) = if i = j then (if i = 3 then 15 / 8 else -9 / 8) else 0 :=
    fun i j => (cutSmall_eq (hst i j)).trans (storage_value h i j)
  have hsec : ∀ k l, secondRaw p 1 k l = (if k = l then (if k = 2 then 15 / 8 else -9 / 8) else 0) *
      (1 / (16 * Real.pi * Real.pi)) := fun k l => by
    simp only [secondRaw, hcut, h.rot, Fin.sum_univ_four]
    congr 1
    fin_cases k <;> fin_cases l <;> simp [scalarOrder] <;> norm_num
  refine ⟨fun k => ?_, hst, fun k l => ?_⟩
  · rw [firstRaw_value h]
    split_ifs
    · exact Or.inr (h2 _ (by norm_num))
    · exact Or.inl (zero_mul _)
  · rw [hsec]
    split_ifs
    · exact Or.inr (h2 _ (by norm_num))
    · exact Or.inr (h2 _ (by norm_num))
    · exact Or.inl (zero_mul _)

/-- The eigenvectors. -/
theorem explicit {S : Solver} (hS : S.Correct) {X : Vectors}
    (h1 : X.real (massHiggs (SM.tree par) (SM.vevTree 2)) = exchange scalarOrder)
    (h2 : X.real (massGauge (SM.gauge 1 0) (SM.vevTree (2 : ℝ))) = exchange gaugeOrder)
    (l1 : S.real (massHiggs (SM.tree par) (SM.vevTree 2)) = [0, 0, 0, 1])
    (l2 : S.real (massGauge (SM.gauge 1 0) (SM.vevTree (2 : ℝ))) = [0, 1, 1, 1])
    (D : Matrix (Fin 4) (Fin 4) ℝ) : Explicit (physicalCouplings S X (tensors D) (SM.vevTree 2)) := by
  have c0 : cutMass 0 = 0 := by simp [cutMass]
  have c1 : cutMass 1 = 1 := by
    rw [cutMass, if_neg]
    norm_num
  have hR : ∀ i j, higgsRot X (SM.tree par) (SM.vevTree 2) i j = if j = scalarOrder i then 1 else 0 := fun i j => by
    rw [higgsRot, h1]
    simp only [exchange, of_apply]
    refine cutSmall_eq ?_
    split_ifs
    · right; norm_num
    · left; rfl
  have hA : ∀ i j, gaugeRot X (SM.gauge 1 0) (SM.vevTree 2) i j = if j = gaugeOrder i then 1 else 0 := fun i j => by
    rw [gaugeRot, h2]
    rfl
  have i1 : ∀ i j, scalarOrder i = scalarOrder j ↔ i = j := by decide
  have i2 : ∀ i, scalarOrder i = 2 ↔ i = 3 := by decide
  have i3 : ∀ i j, gaugeOrder i = gaugeOrder j ↔ i = j := by decide
  have i4 : ∀ i, gaugeOrder i = 3 ↔ i = 0 := by decide
  refine ⟨fun i => ?_, fun i => ?_, hR, fun a b i => ?_, fun a i j => ?_, fun a b i => ?_, fun a i j => ?_,
    fun a b i => ?_, fun a b i j => ?_, fun a b i => ?_, fun a b i j => ?_⟩
  · show cutMass (nth (S.real (massHiggs (SM.tree par) (SM.vevTree 2))) i) = _
    rw [l1]
    fin_cases i <;> simp [nth, c0, c1]
  · show cutMass (nth (S.real (massGauge (SM.gauge 1 0) (SM.vevTree 2))) i) = _
    rw [l2]
    fin_cases i <;> simp [nth, c0, c1]
  · refine (rotate3_exchange hR hR _ a b i).trans ?_
    show (SM.tree par).L3 _ _ _ + ∑ j, (SM.tree par).L4 _ _ _ j * _ = _
    simp only [cubic, vacuum, mul_ite, mul_zero, Finset.sum_ite_eq', Finset.mem_univ, if_true, quartic, i1, i2,
      and_comm (a := b = i)]
    ring
  · refine (rotate4_exchange hR hR _ a a i j).trans ?_
    show (SM.tree par).L4 _ _ _ _ = _
    simp only [quartic, i1, true_and, and_comm (a := a = j)]
    split_ifs <;> norm_num
  · refine (rotate3_exchange hA hR (lambdaGauge3 (SM.gauge 1 0) (SM.vevTree 2)) a b i).trans ?_
    simp only [lambdaGauge3, gauge_tensor, vacuum, mul_ite, mul_zero, Finset.sum_ite_eq', Finset.mem_univ,
      if_true, i2, i3, i4, ne_eq, ite_mul, zero_mul, and_comm (a := i = 3)]
    norm_num
  · refine (rotate4_exchange hA hR (fun a b i j => SM.gauge 1 0 [(a : Nat), (b : Nat), (i : Nat), (j : Nat)])
      a a i j).trans ?_
    simp only [gauge_tensor, i1, i4, true_and, ne_eq, and_comm (a := i = j)]
  all_goals
    simp only [physicalCouplings, tensors, smTensors, assemble, rotate3, rotate4, lambdaFermion3, lambdaFermion4,
      quark_zero, lepton_zero, map_zero, zero_mul, mul_zero, add_zero, Finset.sum_const_zero, smul_zero]

/-- **All conditions are met.** -/
theorem meets (D : Matrix (Fin 4) (Fin 4) ℝ) : ∃ (S : Solver) (X : Vectors), S.Correct ∧ X.Correct S ∧
    Regular (1 / 10 ^ 4) (tensors D) (SM.vevTree 2) ∧ Clean X (tensors D) (SM.vevTree 2) ∧
    Apart (tensors D) (SM.vevTree 2) ∧ Uncut (physicalCouplings S X (tensors D) (SM.vevTree 2)) 1 := by
  obtain ⟨S, hS⟩ := solver_exists
  obtain ⟨X0, hX0, -, hc0⟩ := vectors_diagonal hS
  have hL := sm_lawful par 1 0 constants 2 false D
  have l1 : S.real (massHiggs (SM.tree par) (SM.vevTree 2)) = [0, 0, 0, 1] := by
    have h := hS.real _ (hermitian_scalar _ hL.scalar (SM.vevTree 2))
    change List.Pairwise _ (S.real (massHiggs (SM.tree par) (SM.vevTree 2))) ∧
      ((S.real (massHiggs (SM.tree par) (SM.vevTree 2)) : List ℝ) : Multiset ℝ) =
        (massHiggs (SM.tree par) (SM.vevTree 2)).charpoly.roots at h
    rw [higgs_matrix] at h ⊢
    refine sorted_roots h.1 h.2 (by norm_num) ?_
    show List.Perm [0, 0, 0, 1] [0, 0, 1, 0]
    exact ((List.Perm.swap (1 : ℝ) 0 []).cons 0).cons 0
  have l2 : S.real (massGauge (SM.gauge 1 0) (SM.vevTree (2 : ℝ))) = [0, 1, 1, 1] := by
    have h := hS.real _ (hermitian_gauge _ hL.gauge (SM.vevTree 2))
    change List.Pairwise _ (S.real (massGauge (SM.gauge 1 0) (SM.vevTree (2 : ℝ)))) ∧
      ((S.real (massGauge (SM.gauge 1 0) (SM.vevTree (2 : ℝ))) : List ℝ) : Multiset ℝ) =
        (massGauge (SM.gauge 1 0) (SM.vevTree (2 : ℝ))).charpoly.roots at h
    rw [gauge_matrix] at h ⊢
    refine sorted_roots h.1 h.2 (by norm_num) ?_
    exact (List.perm_append_comm (l₁ := [(0 : ℝ)]) (l₂ := [1, 1, 1]))
  obtain ⟨X1, hX1, e1, -, c1⟩ := change_real hX0 (massHiggs (SM.tree par) (SM.vevTree 2))
    (exchange scalarOrder) (by
      rw [l1, higgs_matrix]
      have := diag_exchange scalarOrder (by decide) ![0, 0, 1, 0]
      convert this using 2 with i
      fin_cases i <;> simp [nth, scalarOrder])
  obtain ⟨X, hX, e2, k2, c2⟩ := change_real hX1 (massGauge (SM.gauge 1 0) (SM.vevTree (2 : ℝ)))
    (exchange gaugeOrder) (by
      rw [l2, gauge_matrix]
      have := diag_exchange gaugeOrder (by decide) ![1, 1, 1, 0]
      convert this using 2 with i
      fin_cases i <;> simp [nth, gaugeOrder])
  have hne : massHiggs (SM.tree par) (SM.vevTree 2) ≠ massGauge (SM.gauge 1 0) (SM.vevTree (2 : ℝ)) := by
    rw [higgs_matrix, gauge_matrix]
    intro h
    have := congrFun (congrFun h 0) 0
    simp at this
  have e1' : X.real (massHiggs (SM.tree par) (SM.vevTree 2)) = exchange scalarOrder := (k2 _ hne).trans e1
  have hz : ∀ m : Nat, (Spec.fermionMatrix m (fun _ => 0) (SM.vevTree (2 : ℝ))).conjTranspose *
      Spec.fermionMatrix m (fun _ => 0) (SM.vevTree (2 : ℝ)) = diagonal fun _ => ((0 : ℝ) : ℂ) := fun m => by
    have : Spec.fermionMatrix m (fun _ => 0) (SM.vevTree (2 : ℝ)) = 0 := by
      ext i j
      simp [Spec.fermionMatrix]
    rw [this]
    simp
  have hscal : Spec.scalarMatrix (tensors D).scalar (SM.vevTree 2) = diagonal ![0, 0, 1, 0] := by
    rw [← massHiggs_eq]
    exact higgs_matrix
  have hgau : Spec.gaugeMatrix (tensors D).gauge (SM.vevTree (2 : ℝ)) = diagonal ![1, 1, 1, 0] := by
    rw [← massGauge_eq]
    exact gauge_matrix
  have hquark : (tensors D).quark = fun _ => 0 := quark_zero
  have hlepton : (tensors D).lepton = fun _ => 0 := lepton_zero
  have v1 : ∀ i : Fin 4, (![0, 0, 1, 0] : Fin 4 → ℝ) i = 0 ∨ (![0, 0, 1, 0] : Fin 4 → ℝ) i = 1 := fun i => by
    fin_cases i <;> simp
  have v2 : ∀ i : Fin 4, (![1, 1, 1, 0] : Fin 4 → ℝ) i = 0 ∨ (![1, 1, 1, 0] : Fin 4 → ℝ) i = 1 := fun i => by
    fin_cases i <;> simp
  refine ⟨S, X, hS, hX, ⟨fun x hx => ?_, fun x hx => ?_, fun z hz' => ?_, fun z hz' => ?_⟩,
    ⟨fun i j => ?_, fun i j => ?_, fun i j => ?_⟩,
    ⟨fun x hx y hy => ?_, fun x hx y hy => ?_, fun x hx y hy => ?_, fun x hx y hy => ?_⟩,
    uncut (explicit hS e1' e2 l1 l2 D)⟩
  · rw [hscal] at hx
    obtain ⟨i, rfl⟩ := roots_diagonal _ hx
    rcases v1 i with h | h <;> rw [h] <;> norm_num
  · rw [hgau] at hx
    obtain ⟨i, rfl⟩ := roots_diagonal _ hx
    rcases v2 i with h | h <;> rw [h] <;> norm_num
  · rw [hquark, hz] at hz'
    obtain ⟨i, rfl⟩ := roots_diagonal _ hz'
    simp
  · rw [hlepton, hz] at hz'
    obtain ⟨i, rfl⟩ := roots_diagonal _ hz'
    simp
  · rw [hscal, ← higgs_matrix, e1']
    simp only [exchange, of_apply]
    split_ifs
    · right; norm_num
    · left; rfl
  · rw [hquark, hz, c2, c1]
    rcases hc0 (fun _ : Fin 12 => 0) i j with h | h <;> rw [h] <;> simp
  · rw [hlepton, hz, c2, c1]
    rcases hc0 (fun _ : Fin 9 => 0) i j with h | h <;> rw [h] <;> simp
  · rw [hscal] at hx hy
    obtain ⟨i, rfl⟩ := roots_diagonal _ hx
    obtain ⟨j, rfl⟩ := roots_diagonal _ hy
    rcases v1 i with h | h <;> rcases v1 j with h' | h' <;> rw [h, h'] <;> norm_num
  · rw [hgau] at hx hy
    obtain ⟨i, rfl⟩ := roots_diagonal _ hx
    obtain ⟨j, rfl⟩ := roots_diagonal _ hy
    rcases v2 i with h | h <;> rcases v2 j with h' | h' <;> rw [h, h'] <;> norm_num
  · rw [hquark, hz] at hx hy
    obtain ⟨i, rfl⟩ := roots_diagonal _ hx
    obtain ⟨j, rfl⟩ := roots_diagonal _ hy
    exact Or.inl rfl
  · rw [hlepton, hz] at hx hy
    obtain ⟨i, rfl⟩ := roots_diagonal _ hx
    obtain ⟨j, rfl⟩ := roots_diagonal _ hy
    exact Or.inl rfl

/-- The hypotheses of the theorem for the standard model. -/
example : constants.ckm ∈ unitaryGroup (Fin 3) ℂ ∧
    ∃ D, calculateDebyeGauge 4 4 (SM.gauge (1 : ℝ) 0) none = some D :=
  ⟨Verif.Spectrum.C79_ckm_unitary numbers, ((C81_sm_gauge 1 0).2 (by norm_num)).imp fun _ h => h.1⟩

end

end Verif.Weinberg.Example
