import Verif.Third.Props
import Verif.Third.Physical
import Verif.Third.Coordinates
import Verif.Weinberg.Example

/-!
# The triple couplings of the mass eigenstates are derivatives of the effective potential (C104)
-/

namespace Verif.Weinberg

open Matrix Verif.Potential Verif.Invariance
open Verif.Potential.Spec (Symmetric polynomial)
open Lagrangian.Spec (Expansion)
open scoped BigOperators
open Spec (Regular Apart Clean Lawful ThirdDerivatives along)

variable {n : Nat} {S : Solver} {X : Vectors} {T : Tensors n} {v : Fin n → ℝ}

/-- The entries of the vector are read in the reverse order of the indices, which makes no difference. -/
theorem gaugeBasis_eq (p : Physical n) (scale : ℝ) {W3 : Fin n → Fin n → Fin n → Flt ℝ}
    (h : weinbergThird (some p) scale = .ok W3) :
    ∃ L, weinbergThirdVector (some p) scale = .ok L ∧ gaugeBasis n L = .ok W3 := by
  obtain ⟨L, hL, hlen, he⟩ := C103_vector p scale W3 h
  refine ⟨L, hL, ?_⟩
  have hb : ∀ i j k : Fin n, (i : Nat) + j * n + k * n * n < L.length := fun i j k => by
    have := he k j i
    have h2 := (List.getElem?_eq_some_iff.1 this).1
    calc (i : Nat) + j * n + k * n * n = k.1 * n ^ 2 + j.1 * n + i.1 := by ring
      _ < _ := h2
  rw [gaugeBasis, if_pos hb]
  congr 1
  funext i j k
  rw [List.getD_eq_getElem?_getD, show (i : Nat) + j * n + k * n * n = k.1 * n ^ 2 + j.1 * n + i.1 by ring, he,
    Option.getD_some]
  rw [(C103_symmetric p scale W3 h j k i).1, (C103_symmetric p scale W3 h j i k).2,
    (C103_symmetric p scale W3 h i j k).1]

/-- The couplings from the third derivatives. -/
theorem tripleCouplings_eq (p : Physical n) (scale : ℝ) (tree ct : Curv n ℝ) (v : Fin n → ℝ) (order : Fin n → Fin n)
    {W3 : Fin n → Fin n → Fin n → ℝ} (h : weinbergThird (some p) scale = .ok fun l m q => .fin (W3 l m q)) :
    tripleCouplings p scale tree ct v order =
      .ok ⟨rotated (fun i l => p.rot (order i) l) (lambdaHiggs3 tree v),
        rotated (fun i l => p.rot (order i) l) (lambdaHiggs3 ct v),
        fun i j k => .fin (rotated (fun i l => p.rot (order i) l) W3 i j k)⟩ := by
  obtain ⟨L, hL, hG⟩ := gaugeBasis_eq p scale h
  unfold tripleCouplings
  rw [hL]
  dsimp only
  rw [hG]
  simp [number]
  rfl

theorem Diag.rotated {m : Nat} {A U : Matrix (Fin m) (Fin m) ℝ} {a : Fin m → ℝ} (h : Diag A U a) :
    star U * A * U = diagonal a := by
  conv_lhs => rw [h.eq]
  rw [show ∀ D : Matrix (Fin m) (Fin m) ℝ, star U * (U * D * star U) * U = (star U * U) * D * (star U * U) from
    fun D => by simp only [Matrix.mul_assoc], h.left, Matrix.one_mul, Matrix.mul_one]
  rfl

/-- Rows of an orthogonal matrix. -/
theorem row_le {R : Matrix (Fin n) (Fin n) ℝ} (hR : Rᵀ * R = 1) (i : Fin n) : ∑ l, |R i l| ≤ Real.sqrt n := by
  refine Real.le_sqrt_of_sq_le ?_
  have h : (Rᵀ)ᵀ * Rᵀ = 1 := by
    rw [transpose_transpose]
    exact mul_eq_one_comm.1 hR
  exact column_le h i

/-- The cuts of small derivatives change the couplings by little. -/
theorem rotated_near {R : Fin n → Fin n → ℝ} {c : ℝ} (hR : ∀ i, ∑ l, |R i l| ≤ c) {A B : Fin n → Fin n → Fin n → ℝ}
    {ε : ℝ} (hε : 0 ≤ ε) (h : ∀ l m q, |A l m q - B l m q| ≤ ε) (i j k : Fin n) :
    |rotated R A i j k - rotated R B i j k| ≤ c ^ 3 * ε := by
  have h0 : ∀ i, 0 ≤ ∑ l, |R i l| := fun i => Finset.sum_nonneg fun _ _ => abs_nonneg _
  have e : rotated R A i j k - rotated R B i j k =
      ∑ l, ∑ m, ∑ q, R i l * R j m * R k q * (A l m q - B l m q) := by
    unfold rotated
    simp only [← Finset.sum_sub_distrib, mul_sub]
  rw [e]
  calc |∑ l, ∑ m, ∑ q, R i l * R j m * R k q * (A l m q - B l m q)|
      ≤ ∑ l, ∑ m, ∑ q, |R i l * R j m * R k q * (A l m q - B l m q)| :=
        (Finset.abs_sum_le_sum_abs _ _).trans (Finset.sum_le_sum fun l _ =>
          (Finset.abs_sum_le_sum_abs _ _).trans (Finset.sum_le_sum fun m _ => Finset.abs_sum_le_sum_abs _ _))
    _ ≤ ∑ l, ∑ m, ∑ q, |R i l| * |R j m| * |R k q| * ε :=
        Finset.sum_le_sum fun l _ => Finset.sum_le_sum fun m _ => Finset.sum_le_sum fun q _ => by
          rw [abs_mul, abs_mul, abs_mul]
          exact mul_le_mul_of_nonneg_left (h l m q) (by positivity)
    _ = (∑ l, |R i l|) * (∑ m, |R j m|) * (∑ q, |R k q|) * ε := by
        simp only [← Finset.mul_sum, ← Finset.sum_mul]
    _ ≤ c * c * c * ε := by
        have hc : 0 ≤ c := (h0 i).trans (hR i)
        exact mul_le_mul_of_nonneg_right (mul_le_mul (mul_le_mul (hR i) (hR j) (h0 j) hc) (hR k) (h0 k)
          (mul_nonneg hc hc)) hε
    _ = c ^ 3 * ε := by ring

section

/-- **Mass eigenstates.**  If each row of the rotation matrix is assigned to one particle, then the directions are
orthonormal, and in these coordinates the second derivatives of the tree-level potential are the squared masses. -/
theorem C104_coordinates (hX : X.Correct S) (hT : Lawful T) (hc : Clean X T v)
    (order : Fin n → Fin n) (ho : Function.Injective order) :
    (∀ i j, ∑ l, (physicalCouplings S X T v).rot (order i) l * (physicalCouplings S X T v).rot (order j) l =
      if i = j then 1 else 0) ∧
    ∃ N, Expansion (fun x => polynomial T.scalar
        (along v (fun i l => (physicalCouplings S X T v).rot (order i) l) x)) 0 N
      (fun i j => if i = j then nth (S.real (Spec.scalarMatrix T.scalar v)) (order i) else 0) := by
  have hR := higgsRot_orthogonal hX hT hc
  have hR' := mul_eq_one_comm.1 hR
  refine ⟨fun i j => ?_, fun i => ∑ l, (physicalCouplings S X T v).rot (order i) l * grad T.scalar v l, ?_⟩
  · have := congrFun (congrFun hR' (order i)) (order j)
    rw [Matrix.mul_apply, one_apply] at this
    simp only [ho.eq_iff, transpose_apply] at this
    exact this
  · have h := expansion_polynomial T.scalar hT.scalar v
    have e0 := along_zero v (fun i l => (physicalCouplings S X T v).rot (order i) l)
    have h' : Expansion (polynomial T.scalar)
        (along v (fun i l => (physicalCouplings S X T v).rot (order i) l) 0) (grad T.scalar v)
        (hessianCT T.scalar v) := by rw [e0]; exact h
    refine (expansion_along _ h').congr rfl (fun _ => rfl) fun i j => ?_
    have hd := hX.real _ (hermitian_scalar _ hT.scalar v)
    generalize hU : X.real (massHiggs T.scalar v) = U at hd
    have hdiag := hd.rotated
    have hij := congrFun (congrFun hdiag (order i)) (order j)
    rw [diagonal_apply] at hij
    rw [← massHiggs_eq]
    have e1 : ∀ a l, (physicalCouplings S X T v).rot a l = U l a := fun a l => by
      rw [← hU]; exact higgsRot_eq hc a l
    simp only [e1]
    rw [Matrix.mul_apply] at hij
    simp only [Matrix.mul_apply, star_apply, star_trivial, Finset.sum_mul, ho.eq_iff] at hij
    rw [← hij, Finset.sum_comm]
    refine Finset.sum_congr rfl fun m _ => Finset.sum_congr rfl fun l _ => ?_
    show _ * massHiggs T.scalar v l m = _
    ring

/-- **Physical triple couplings.**  In the coordinates of the mass eigenstates the tree-level and the counterterm
couplings are the third derivatives of the tree-level potential and of the counterterm potential, and the one-loop
couplings are those of the Coleman-Weinberg potential up to `n^(3/2)/10¹⁰`. -/
theorem C104_couplings (hS : S.Correct) (hX : X.Correct S) (hT : Lawful T) {t scale : ℝ} (ht : 1 / 10 ^ 8 ≤ t)
    (hm : Regular t T v) (hc : Clean X T v) (hd : Apart T v) (ct : Curv n ℝ) (hct : Symmetric ct)
    (order : Fin n → Fin n) :
    ∃ (c : Couplings n) (W cw : Fin n → Fin n → Fin n → ℝ),
      tripleCouplings (physicalCouplings S X T v) scale T.scalar ct v order = .ok c ∧
      ThirdDerivatives (fun x => polynomial T.scalar
        (along v (fun i l => (physicalCouplings S X T v).rot (order i) l) x)) 0 c.tree ∧
      ThirdDerivatives (fun x => polynomial ct
        (along v (fun i l => (physicalCouplings S X T v).rot (order i) l) x)) 0 c.ct ∧
      ThirdDerivatives (fun x => Spec.potential t scale T
        (along v (fun i l => (physicalCouplings S X T v).rot (order i) l) x)) 0 W ∧
      ∀ i j k, c.cw i j k = .fin (cw i j k) ∧ |cw i j k - W i j k| ≤ Real.sqrt n ^ 3 / 10 ^ 10 := by
  obtain ⟨W3, h3, e⟩ := C103_third hS hX hT (scale := scale) ht hm hc hd
  refine ⟨_, _, _, tripleCouplings_eq _ _ _ _ _ _ e, (third_polynomial _ hT.scalar v).along _,
    (third_polynomial _ hct v).along _, h3.along _, fun i j k => ⟨rfl, ?_⟩⟩
  rw [show Real.sqrt n ^ 3 / 10 ^ 10 = Real.sqrt n ^ 3 * (1 / 10 ^ 10 : ℝ) by ring]
  refine rotated_near (R := fun i l => (physicalCouplings S X T v).rot (order i) l)
    (fun i => row_le (higgsRot_orthogonal hX hT hc) (order i)) (by norm_num) (fun l m q => ?_) i j k
  exact cutSmall_near (W3 l m q)

/-- **Effective potential.**  The sum of the three couplings is the third derivative of the effective potential at zero
temperature along the mass eigenstates. -/
theorem C104_effective (hS : S.Correct) (hX : X.Correct S) (hT : Lawful T) {scale : ℝ}
    (hm : Regular (1 / 10 ^ 4) T v) (hc : Clean X T v) (hd : Apart T v) (ct : Curv n ℝ) (hct : Symmetric ct)
    (JB JF : Thermal) (order : Fin n → Fin n) :
    ∃ (c : Couplings n) (V cw : Fin n → Fin n → Fin n → ℝ),
      tripleCouplings (physicalCouplings S X T v) scale T.scalar ct v order = .ok c ∧
      ThirdDerivatives (fun x => T.effective ct none S scale JB JF 0
        (along v (fun i l => (physicalCouplings S X T v).rot (order i) l) x)) 0 V ∧
      ∀ i j k, c.cw i j k = .fin (cw i j k) ∧
        |c.tree i j k + c.ct i j k + cw i j k - V i j k| ≤ Real.sqrt n ^ 3 / 10 ^ 10 := by
  obtain ⟨c, W, cw, h, h1, h2, h3, h4⟩ := C104_couplings hS hX hT (scale := scale) (t := 1 / 10 ^ 4)
    (by norm_num) hm hc hd ct hct order
  refine ⟨c, fun i j k => c.tree i j k + c.ct i j k + W i j k, cw, h, ((h1.add h2).add h3).congr ?_
    fun _ _ _ => rfl, fun i j k => ⟨(h4 i j k).1, ?_⟩⟩
  · funext x
    unfold Tensors.effective
    rw [C30_value _ _ _ _ (by simp), C30_counterterm_value _ _ _ _ (by simp), v1Loop_eq hS T hT]
  · have := (h4 i j k).2
    rwa [show c.tree i j k + c.ct i j k + cw i j k - (c.tree i j k + c.ct i j k + W i j k) =
      cw i j k - W i j k by ring]

end

/-- **Negative squared masses.**  At a saddle point there is no number for any one-loop coupling. -/
theorem C104_negative (scale : ℝ) (hS : S.Correct) (hT : Lawful T) (ct : Curv n ℝ) (order : Fin n → Fin n)
    (h : ∃ x ∈ (Spec.scalarMatrix T.scalar v).charpoly.roots, x ≤ -(1 / 10 ^ 5)) :
    tripleCouplings (physicalCouplings S X T v) scale T.scalar ct v order = .err .runtime ∨
      ∃ c, tripleCouplings (physicalCouplings S X T v) scale T.scalar ct v order = .ok c ∧
        ∀ i j k, c.cw i j k = .nan := by
  rcases C103_negative (X := X) scale hS hT h with e | e
  · left
    unfold tripleCouplings weinbergThirdVector
    rw [e]
  · right
    obtain ⟨L, hL, hG⟩ := gaugeBasis_eq _ _ e
    refine ⟨⟨_, _, _⟩, by unfold tripleCouplings; rw [hL]; dsimp only; rw [hG], fun i j k => ?_⟩
    exact if_pos ⟨i, j, k, rfl⟩

theorem rotated_swap12 {R : Fin n → Fin n → ℝ} {A : Fin n → Fin n → Fin n → ℝ} (h : ∀ l m q, A m l q = A l m q)
    (i j k : Fin n) : rotated R A j i k = rotated R A i j k := by
  unfold rotated
  rw [Finset.sum_comm]
  refine Finset.sum_congr rfl fun l _ => Finset.sum_congr rfl fun m _ => Finset.sum_congr rfl fun q _ => ?_
  rw [h]
  ring

theorem rotated_swap23 {R : Fin n → Fin n → ℝ} {A : Fin n → Fin n → Fin n → ℝ} (h : ∀ l m q, A l q m = A l m q)
    (i j k : Fin n) : rotated R A i k j = rotated R A i j k := by
  unfold rotated
  refine Finset.sum_congr rfl fun l _ => ?_
  rw [Finset.sum_comm]
  refine Finset.sum_congr rfl fun m _ => Finset.sum_congr rfl fun q _ => ?_
  rw [h]
  ring

/-- **Symmetry.**  The couplings do not depend on the order of the three particles. -/
theorem C104_symmetric (p : Physical n) (scale : ℝ) (tree ct : Curv n ℝ) (htree : Symmetric tree)
    (hct : Symmetric ct) (v : Fin n → ℝ) (order : Fin n → Fin n) (c : Couplings n)
    (h : tripleCouplings p scale tree ct v order = .ok c) (i j k : Fin n) :
    c.tree j i k = c.tree i j k ∧ c.tree i k j = c.tree i j k ∧ c.ct j i k = c.ct i j k ∧
      c.ct i k j = c.ct i j k ∧ c.cw j i k = c.cw i j k ∧ c.cw i k j = c.cw i j k := by
  unfold tripleCouplings at h
  cases e : weinbergThird (some p) scale with
  | err x => unfold weinbergThirdVector at h; rw [e] at h; exact absurd h (by simp)
  | ub x => unfold weinbergThirdVector at h; rw [e] at h; exact absurd h (by simp)
  | ok W3 =>
    obtain ⟨L, hL, hG⟩ := gaugeBasis_eq p scale e
    rw [hL] at h
    dsimp only at h
    rw [hG] at h
    have := Outcome.ok.inj h
    subst this
    have hs := C103_symmetric p scale W3 e
    have t12 : ∀ (c : Curv n ℝ), Symmetric c → ∀ l m q, lambdaHiggs3 c v m l q = lambdaHiggs3 c v l m q :=
      fun c hc l m q => by
        unfold lambdaHiggs3
        rw [hc.s3a m l q]
        exact congrArg _ (Finset.sum_congr rfl fun j _ => by rw [hc.s4a m l q j])
    have t23 : ∀ (c : Curv n ℝ), Symmetric c → ∀ l m q, lambdaHiggs3 c v l q m = lambdaHiggs3 c v l m q :=
      fun c hc l m q => by
        unfold lambdaHiggs3
        rw [hc.s3b l q m]
        exact congrArg _ (Finset.sum_congr rfl fun j _ => by rw [hc.s4b l q m j])
    refine ⟨?_, ?_, ?_, ?_, ?_, ?_⟩
    · exact rotated_swap12 (R := fun i l => p.rot (order i) l) (A := lambdaHiggs3 tree v) (t12 tree htree) i j k
    · exact rotated_swap23 (R := fun i l => p.rot (order i) l) (A := lambdaHiggs3 tree v) (t23 tree htree) i j k
    · exact rotated_swap12 (R := fun i l => p.rot (order i) l) (A := lambdaHiggs3CT ct v) (t12 ct hct) i j k
    · exact rotated_swap23 (R := fun i l => p.rot (order i) l) (A := lambdaHiggs3CT ct v) (t23 ct hct) i j k
    · exact if_congr Iff.rfl rfl (congrArg Flt.fin (rotated_swap12 (R := fun i l => p.rot (order i) l)
        (A := fun l m q => number (W3 l m q)) (fun l m q => congrArg number (hs l m q).1) i j k))
    · exact if_congr Iff.rfl rfl (congrArg Flt.fin (rotated_swap23 (R := fun i l => p.rot (order i) l)
        (A := fun l m q => number (W3 l m q)) (fun l m q => congrArg number (hs l m q).2) i j k))

/-- **Standard Model.**  At a stationary point the tree-level coupling of three Higgs bosons with the squared mass `m²`
is `3 m²/v`; the table contains it with the opposite sign. -/
theorem C104_sm (p : Physical 4) (scale : ℝ) (a : Lagrangian.SM.Par ℝ) (ct : Curv 4 ℝ) (w : ℝ) (hw : w ≠ 0)
    (hs : grad (Lagrangian.SM.tree a) (Lagrangian.SM.vevTree w) 2 = 0) (order : Fin 4 → Fin 4) (i : Fin 4)
    (hi : ∀ l, p.rot (order i) l = if l = 2 then 1 else 0) (c : Couplings 4)
    (h : tripleCouplings p scale (Lagrangian.SM.tree a) ct (Lagrangian.SM.vevTree w) order = .ok c) :
    c.tree i i i = 3 * hessianCT (Lagrangian.SM.tree a) (Lagrangian.SM.vevTree w) 2 2 / w := by
  have ht : c.tree = rotated (fun i l => p.rot (order i) l)
      (lambdaHiggs3 (Lagrangian.SM.tree a) (Lagrangian.SM.vevTree w)) := by
    unfold tripleCouplings at h
    split at h
    · cases h
    · cases h
    · split at h
      · cases h
      · cases h
      · exact (Outcome.ok.inj h) ▸ rfl
  have e : c.tree i i i = lambdaHiggs3 (Lagrangian.SM.tree a) (Lagrangian.SM.vevTree w) 2 2 2 := by
    rw [ht]
    simp [rotated, hi]
  rw [Lagrangian.SM.tree_grad] at hs
  rw [e, Lagrangian.SM.tree_hess]
  simp only [if_true] at hs ⊢
  have h2 : a.muSq = -(a.lam * w ^ 2) := by
    have : w * (a.muSq + a.lam * w ^ 2) = 0 := by linear_combination hs
    rcases mul_eq_zero.1 this with h | h
    · exact absurd h hw
    · linear_combination h
  have h3 : lambdaHiggs3 (Lagrangian.SM.tree a) (Lagrangian.SM.vevTree w) 2 2 2 = 6 * a.lam * w := by
    rw [Lagrangian.SM.tree_eq]
    simp [lambdaHiggs3, Lagrangian.curv, Lagrangian.SM.vevTree, Lagrangian.lookSym, Lagrangian.look, Lagrangian.SM.l4,
      List.lookup, List.insertionSort, List.orderedInsert, Fin.sum_univ_four]
  rw [h3, h2]
  field_simp
  ring

/-- All conditions are met by a Standard Model with massless fermions. -/
example (D : Matrix (Fin 4) (Fin 4) ℝ) (ct : Curv 4 ℝ) (hct : Symmetric ct) (JB JF : Thermal) :
    ∃ (S : Solver) (X : Vectors) (c : Couplings 4) (V cw : Fin 4 → Fin 4 → Fin 4 → ℝ),
      tripleCouplings (physicalCouplings S X (Example.tensors D) (Lagrangian.SM.vevTree 2)) 1
        (Example.tensors D).scalar ct (Lagrangian.SM.vevTree 2) id = .ok c ∧
      ThirdDerivatives (fun x => (Example.tensors D).effective ct none S 1 JB JF 0
        (along (Lagrangian.SM.vevTree 2) (fun i l =>
          (physicalCouplings S X (Example.tensors D) (Lagrangian.SM.vevTree 2)).rot i l) x)) 0 V ∧
      ∀ i j k, c.cw i j k = .fin (cw i j k) ∧
        |c.tree i j k + c.ct i j k + cw i j k - V i j k| ≤ Real.sqrt 4 ^ 3 / 10 ^ 10 := by
  obtain ⟨S, X, hS, hX, hm, hc, hd, -⟩ := Example.meets D
  obtain ⟨c, V, cw, h⟩ := C104_effective (T := Example.tensors D) (scale := 1) hS hX (sm_lawful _ 1 0 _ 2 false D) hm hc hd ct hct JB JF id
  exact ⟨S, X, c, V, cw, by simpa using h⟩

/-- A massless scalar and one with the squared mass `-1`. -/
noncomputable def saddle : Tensors 2 where
  scalar := ⟨fun _ => 0, diagonal ![-1, 0], fun _ _ _ => 0, fun _ _ _ _ => 0⟩
  gauge := fun _ => 0
  quark := fun _ => 0
  lepton := fun _ => 0
  debyeHiggs := fun _ _ => 0
  debyeGauge := 0

/-- The conditions of the statements about saddle points are met. -/
example (v : Fin 2 → ℝ) (X : Vectors) (scale : ℝ) : ∃ S : Solver, S.Correct ∧
    weinbergThird (some (physicalCouplings S X saddle v)) scale = .err .runtime := by
  obtain ⟨S, hS⟩ := solver_exists
  have hm : Spec.scalarMatrix saddle.scalar v = diagonal ![-1, 0] := by
    ext i j
    simp [Spec.scalarMatrix, saddle]
  have hL : Lawful saddle := by
    refine ⟨⟨fun i j => ?_, fun _ _ _ => rfl, fun _ _ _ => rfl, fun _ _ _ _ => rfl, fun _ _ _ _ => rfl,
      fun _ _ _ _ => rfl⟩, ⟨fun _ _ _ _ => rfl, fun _ _ _ _ => rfl⟩, fun W φ => ?_, fun _ _ _ => rfl,
      fun _ _ _ => rfl⟩
    · fin_cases i <;> fin_cases j <;> simp [saddle]
    · simp [saddle]
  refine ⟨S, hS, (C103_negative_throws scale hS hL ⟨-1, ?_, by norm_num⟩ ?_).1⟩
  · rw [hm, roots_of_diag]
    exact Multiset.mem_map.2 ⟨0, by rw [Finset.mem_val]; exact Finset.mem_univ _, rfl⟩
  · rw [hm, roots_of_diag]
    exact Multiset.mem_map.2 ⟨1, by rw [Finset.mem_val]; exact Finset.mem_univ _, rfl⟩

/-- The conditions of `C103_third` are met. -/
example (D : Matrix (Fin 4) (Fin 4) ℝ) : ∃ (S : Solver) (X : Vectors) (W3 : Fin 4 → Fin 4 → Fin 4 → ℝ),
    ThirdDerivatives (Spec.potential (1 / 10 ^ 4) 1 (Example.tensors D)) (Lagrangian.SM.vevTree 2) W3 ∧
      weinbergThird (some (physicalCouplings S X (Example.tensors D) (Lagrangian.SM.vevTree 2))) 1 =
        .ok fun l m q => .fin (if |W3 l m q| < 1 / 10 ^ 10 then 0 else W3 l m q) := by
  obtain ⟨S, X, hS, hX, hm, hc, hd, -⟩ := Example.meets D
  obtain ⟨W3, h⟩ := C103_third (T := Example.tensors D) (scale := 1) hS hX (sm_lawful _ 1 0 _ 2 false D)
    (by norm_num) hm hc hd
  exact ⟨S, X, W3, h⟩

end Verif.Weinberg
