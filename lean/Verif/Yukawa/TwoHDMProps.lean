import Verif.Yukawa.TwoHDM
import Verif.Lagrangian.N2HDM.Props

/-!
# The models with two doublets implement their Yukawa interactions
-/

set_option linter.unusedSimpArgs false

namespace Verif.Yukawa.Spec

/-- The doublet of the down-type quarks, ClassPotentialR2HDM.h:71-74: `Φ_2` in the types I and LS,
`Φ_1` in the types II and FL. -/
noncomputable def downDoublet (type : Int) (Φ₁ Φ₂ : Fin 2 → ℂ) : Fin 2 → ℂ :=
  if type = 1 ∨ type = 3 then Φ₂ else Φ₁

/-- The doublet of the charged leptons, ClassPotentialR2HDM.h:71-74: `Φ_2` in the types I and FL,
`Φ_1` in the types II and LS. -/
noncomputable def leptonDoublet (type : Int) (Φ₁ Φ₂ : Fin 2 → ℂ) : Fin 2 → ℂ :=
  if type = 1 ∨ type = 4 then Φ₂ else Φ₁

/-- The vacuum expectation value of the doublet of the down-type quarks. -/
noncomputable def downVev (type : Int) (v1 v2 : ℝ) : ℝ := if type = 1 ∨ type = 3 then v2 else v1

/-- The vacuum expectation value of the doublet of the charged leptons. -/
noncomputable def leptonVev (type : Int) (v1 v2 : ℝ) : ℝ := if type = 1 ∨ type = 4 then v2 else v1

end Verif.Yukawa.Spec

namespace Verif.Yukawa.TwoHDM

open Verif.Potential Verif.Lagrangian Complex
open Verif.Yukawa.Spec
open scoped ComplexConjugate BigOperators

variable {m : Nat}

/-- `1/2 M(a, b) ψ_a ψ_b` -/
noncomputable def bil (M : Nat → Nat → ℂ) (ψ : Fin m → ℂ) : ℂ :=
  1 / 2 * ∑ a : Fin m, ∑ b : Fin m, M a b * (ψ a * ψ b)

theorem bil_add (M N : Nat → Nat → ℂ) (ψ : Fin m → ℂ) :
    bil (fun i j => M i j + N i j) ψ = bil M ψ + bil N ψ := by
  simp only [bil, add_mul, Finset.sum_add_distrib, mul_add]

theorem bil_smul (z : ℂ) (M : Nat → Nat → ℂ) (ψ : Fin m → ℂ) :
    bil (fun i j => z * M i j) ψ = z * bil M ψ := by
  simp only [bil, mul_assoc, ← Finset.mul_sum]
  ring

theorem bil_neg (M : Nat → Nat → ℂ) (ψ : Fin m → ℂ) :
    bil (fun i j => -M i j) ψ = -bil M ψ := by
  simp only [bil, neg_mul, Finset.sum_neg_distrib, mul_neg]

theorem bil_zero (ψ : Fin m → ℂ) : bil (fun _ _ => 0) ψ = 0 := by
  simp [bil]

theorem form_bil {n : Nat} (F : List Nat → ℂ) (ψ : Fin m → ℂ) (φ : Fin n → ℝ) :
    form F ψ φ = ∑ k : Fin n, φ k * bil (fun i j => F [i, j, (k : Nat)]) ψ := by
  unfold form bil
  simp only [Finset.mul_sum]
  rw [Finset.sum_comm_cycle]
  exact Finset.sum_congr rfl fun k _ => Finset.sum_congr rfl fun a _ =>
    Finset.sum_congr rfl fun b _ => by ring

/-- The statements fill entries above the diagonal. -/
def Upper (w : Assign ℂ) : Prop := ∀ q ∈ w.map (·.1), ∃ i j, q = [i, j] ∧ i < j

theorem upper_cons {i j : Nat} {x : ℂ} {w : Assign ℂ} (h : i < j) (hw : Upper w) :
    Upper (([i, j], x) :: w) := by
  intro q hq
  rw [List.map_cons, List.mem_cons] at hq
  rcases hq with rfl | hq
  · exact ⟨i, j, rfl, h⟩
  · exact hw q hq

theorem upper_nil : Upper [] := by intro q hq; cases hq

theorem matrix_upper (w : Assign ℂ) (hd : Distinct w) (hu : Upper w) (i j : Nat) :
    matrix w i j = sumT w [i, j] + sumT w [j, i] := by
  have low : ∀ i j : Nat, ¬ i < j → sumT w [i, j] = 0 := by
    intro i j h
    apply sumT_notin
    intro hq
    obtain ⟨a, b, e, hab⟩ := hu _ hq
    simp only [List.cons.injEq, and_true] at e
    omega
  unfold matrix mirrored
  rw [assign_eq w hd]
  split
  · next h => rw [low i j (by omega), zero_add]
  · next h => rw [low j i h, add_zero]

theorem matrix_symmetric (w : Assign ℂ) (hd : Distinct w) (hu : Upper w) (i j : Nat) :
    matrix w i j = matrix w j i := by
  rw [matrix_upper w hd hu, matrix_upper w hd hu, add_comm]

/-- The form of a mirrored matrix. -/
theorem bil_matrix (w : Assign ℂ) (hd : Distinct w) (hu : Upper w) (ψ : Fin m → ℂ) :
    bil (matrix w) ψ =
      (w.map fun e => match e.1 with | [p, q] => e.2 * (ext ψ p * ext ψ q) | _ => 0).sum := by
  refine Eq.trans ?_ (sumT_two w ψ ψ)
  unfold bil
  simp only [matrix_upper w hd hu, add_mul, Finset.sum_add_distrib]
  have : ∑ a : Fin m, ∑ b : Fin m, sumT w [(b : Nat), (a : Nat)] * (ψ a * ψ b) =
      ∑ a : Fin m, ∑ b : Fin m, sumT w [(a : Nat), (b : Nat)] * (ψ a * ψ b) := by
    rw [Finset.sum_comm]
    exact Finset.sum_congr rfl fun a _ => Finset.sum_congr rfl fun b _ => by ring
  rw [this]
  ring

/-- Every list of statements fills different entries above the diagonal. -/
theorem upR_good (c : Constants) (v : ℝ) : Distinct (upR c v) ∧ Upper (upR c v) :=
  ⟨distinct_of_chain16 _ (by simp only [upR, List.map_cons, List.map_nil]; decide), by
    unfold upR; iterate 9 refine upper_cons (by decide) ?_
    exact upper_nil⟩

theorem upS_good (c : Constants) (v : ℝ) : Distinct (upS c v) ∧ Upper (upS c v) :=
  ⟨distinct_of_chain16 _ (by simp only [upS, List.map_cons, List.map_nil]; decide), by
    unfold upS; iterate 3 refine upper_cons (by decide) ?_
    exact upper_nil⟩

theorem downR_good (c : Constants) (v : ℝ) : Distinct (downR c v) ∧ Upper (downR c v) :=
  ⟨distinct_of_chain16 _ (by simp only [downR, List.map_cons, List.map_nil]; decide), by
    unfold downR; iterate 9 refine upper_cons (by decide) ?_
    exact upper_nil⟩

theorem downS_good (c : Constants) (v : ℝ) : Distinct (downS c v) ∧ Upper (downS c v) :=
  ⟨distinct_of_chain16 _ (by simp only [downS, List.map_cons, List.map_nil]; decide), by
    unfold downS; iterate 3 refine upper_cons (by decide) ?_
    exact upper_nil⟩

theorem leptonR_good (c : Constants) (v : ℝ) : Distinct (leptonR c v) ∧ Upper (leptonR c v) :=
  ⟨distinct_of_chain16 _ (by simp only [leptonR, List.map_cons, List.map_nil]; decide), by
    unfold leptonR; iterate 3 refine upper_cons (by decide) ?_
    exact upper_nil⟩

theorem leptonS_good (c : Constants) (v : ℝ) : Distinct (leptonS c v) ∧ Upper (leptonS c v) :=
  ⟨distinct_of_chain16 _ (by simp only [leptonS, List.map_cons, List.map_nil]; decide), by
    unfold leptonS; iterate 3 refine upper_cons (by decide) ?_
    exact upper_nil⟩

/-- The form of the matrices in terms of the fields of the documented basis. -/
theorem bil_upR (c : Constants) (v : ℝ) (ψ : Fin 12 → ℂ) : bil (matrix (upR c v)) ψ =
    -∑ i, ∑ j, (quarkBasis ψ).dL i * conj (c.ckm j i) * (c.up j / v) * (quarkBasis ψ).uR j := by
  rw [bil_matrix _ (upR_good c v).1 (upR_good c v).2]
  simp only [upR, List.map_cons, List.map_nil, List.sum_cons, List.sum_nil, Lagrangian.ext,
    Nat.reduceLT, dite_true, Fin.reduceFinMk, Fin.sum_univ_three, Constants.ckm, Constants.up,
    quarkBasis, Matrix.of_apply, Matrix.cons_val, Matrix.cons_val_zero, Matrix.cons_val_one,
    div_eq_mul_inv, Fin.zero_eta, Fin.mk_one, Fin.isValue]
  ring

theorem bil_upS (c : Constants) (v : ℝ) (ψ : Fin 12 → ℂ) : bil (matrix (upS c v)) ψ =
    ∑ i, (quarkBasis ψ).uL i * (c.up i / v) * (quarkBasis ψ).uR i := by
  rw [bil_matrix _ (upS_good c v).1 (upS_good c v).2]
  simp only [upS, List.map_cons, List.map_nil, List.sum_cons, List.sum_nil, Lagrangian.ext,
    Nat.reduceLT, dite_true, Fin.reduceFinMk, Fin.sum_univ_three, Constants.up,
    quarkBasis, Matrix.cons_val, Matrix.cons_val_zero, Matrix.cons_val_one,
    div_eq_mul_inv, Fin.zero_eta, Fin.mk_one, Fin.isValue]
  ring

theorem bil_downR (c : Constants) (v : ℝ) (ψ : Fin 12 → ℂ) : bil (matrix (downR c v)) ψ =
    ∑ i, ∑ j, (quarkBasis ψ).uL i * c.ckm i j * (c.down j / v) * (quarkBasis ψ).dR j := by
  rw [bil_matrix _ (downR_good c v).1 (downR_good c v).2]
  simp only [downR, List.map_cons, List.map_nil, List.sum_cons, List.sum_nil, Lagrangian.ext,
    Nat.reduceLT, dite_true, Fin.reduceFinMk, Fin.sum_univ_three, Constants.ckm, Constants.down,
    quarkBasis, Matrix.of_apply, Matrix.cons_val, Matrix.cons_val_zero, Matrix.cons_val_one,
    div_eq_mul_inv, Fin.zero_eta, Fin.mk_one, Fin.isValue]
  ring

theorem bil_downS (c : Constants) (v : ℝ) (ψ : Fin 12 → ℂ) : bil (matrix (downS c v)) ψ =
    ∑ i, (quarkBasis ψ).dL i * (c.down i / v) * (quarkBasis ψ).dR i := by
  rw [bil_matrix _ (downS_good c v).1 (downS_good c v).2]
  simp only [downS, List.map_cons, List.map_nil, List.sum_cons, List.sum_nil, Lagrangian.ext,
    Nat.reduceLT, dite_true, Fin.reduceFinMk, Fin.sum_univ_three, Constants.down,
    quarkBasis, Matrix.cons_val, Matrix.cons_val_zero, Matrix.cons_val_one,
    div_eq_mul_inv, Fin.zero_eta, Fin.mk_one, Fin.isValue]
  ring

theorem bil_leptonR (c : Constants) (v : ℝ) (ψ : Fin 9 → ℂ) : bil (matrix (leptonR c v)) ψ =
    ∑ i, (leptonBasis ψ).nL i * (c.charged i / v) * (leptonBasis ψ).eR i := by
  rw [bil_matrix _ (leptonR_good c v).1 (leptonR_good c v).2]
  simp only [leptonR, List.map_cons, List.map_nil, List.sum_cons, List.sum_nil, Lagrangian.ext,
    Nat.reduceLT, dite_true, Fin.reduceFinMk, Fin.sum_univ_three, Constants.charged,
    leptonBasis, Matrix.cons_val, Matrix.cons_val_zero, Matrix.cons_val_one,
    div_eq_mul_inv, Fin.zero_eta, Fin.mk_one, Fin.isValue]
  ring

theorem bil_leptonS (c : Constants) (v : ℝ) (ψ : Fin 9 → ℂ) : bil (matrix (leptonS c v)) ψ =
    ∑ i, (leptonBasis ψ).eL i * (c.charged i / v) * (leptonBasis ψ).eR i := by
  rw [bil_matrix _ (leptonS_good c v).1 (leptonS_good c v).2]
  simp only [leptonS, List.map_cons, List.map_nil, List.sum_cons, List.sum_nil, Lagrangian.ext,
    Nat.reduceLT, dite_true, Fin.reduceFinMk, Fin.sum_univ_three, Constants.charged,
    leptonBasis, Matrix.cons_val, Matrix.cons_val_zero, Matrix.cons_val_one,
    div_eq_mul_inv, Fin.zero_eta, Fin.mk_one, Fin.isValue]
  ring

/-- The documented types. -/
def Documented (type : Int) : Prop := type = 1 ∨ type = 2 ∨ type = 3 ∨ type = 4

theorem vevDown_documented {type : Int} (h : Documented type) (v1 v2 : ℝ) :
    vevDown type v1 v2 = downVev type v1 v2 := by
  rcases h with rfl | rfl | rfl | rfl <;> simp [vevDown, downVev]

theorem vevLepton_documented {type : Int} (h : Documented type) (v1 v2 : ℝ) :
    vevLepton type v1 v2 = leptonVev type v1 v2 := by
  rcases h with rfl | rfl | rfl | rfl <;> simp [vevLepton, leptonVev]

theorem quarkYukawa_two (c : Constants) (v1 v2 : ℝ) (type : Int) (ψ : Fin 12 → ℂ)
    (a1 b1 c1 d1 a2 b2 c2 d2 : ℝ) :
    quarkYukawa c.ckm (coupling v2 c.up) (coupling (downVev type v1 v2) c.down)
        (Lagrangian.Spec.doublet a2 b2 c2 d2)
        (downDoublet type (Lagrangian.Spec.doublet a1 b1 c1 d1)
          (Lagrangian.Spec.doublet a2 b2 c2 d2)) (quarkBasis ψ) =
      (if type = 1 ∨ type = 3 then (a2 + b2 * I) * bil (matrix (downR c (downVev type v1 v2))) ψ +
          (c2 + d2 * I) * bil (matrix (downS c (downVev type v1 v2))) ψ
        else (a1 + b1 * I) * bil (matrix (downR c (downVev type v1 v2))) ψ +
          (c1 + d1 * I) * bil (matrix (downS c (downVev type v1 v2))) ψ) +
        (c2 - d2 * I) * bil (matrix (upS c v2)) ψ + (a2 - b2 * I) * bil (matrix (upR c v2)) ψ := by
  have h : downDoublet type (Lagrangian.Spec.doublet a1 b1 c1 d1)
      (Lagrangian.Spec.doublet a2 b2 c2 d2) =
      ![(if type = 1 ∨ type = 3 then a2 + b2 * I else a1 + b1 * I) / ((√2 : ℝ) : ℂ),
        (if type = 1 ∨ type = 3 then c2 + d2 * I else c1 + d1 * I) / ((√2 : ℝ) : ℂ)] := by
    unfold downDoublet Lagrangian.Spec.doublet
    split_ifs <;> rfl
  rw [h, Lagrangian.Spec.doublet, quark_scaled, bil_upR, bil_upS, bil_downR, bil_downS]
  simp only [map_add, map_mul, Complex.conj_ofReal, Complex.conj_I]
  split_ifs <;> ring

theorem leptonYukawa_two (c : Constants) (v1 v2 : ℝ) (type : Int) (ψ : Fin 9 → ℂ)
    (a1 b1 c1 d1 a2 b2 c2 d2 : ℝ) :
    leptonYukawa (coupling (leptonVev type v1 v2) c.charged)
        (leptonDoublet type (Lagrangian.Spec.doublet a1 b1 c1 d1)
          (Lagrangian.Spec.doublet a2 b2 c2 d2)) (leptonBasis ψ) =
      if type = 1 ∨ type = 4 then
          (a2 + b2 * I) * bil (matrix (leptonR c (leptonVev type v1 v2))) ψ +
          (c2 + d2 * I) * bil (matrix (leptonS c (leptonVev type v1 v2))) ψ
        else (a1 + b1 * I) * bil (matrix (leptonR c (leptonVev type v1 v2))) ψ +
          (c1 + d1 * I) * bil (matrix (leptonS c (leptonVev type v1 v2))) ψ := by
  have h : leptonDoublet type (Lagrangian.Spec.doublet a1 b1 c1 d1)
      (Lagrangian.Spec.doublet a2 b2 c2 d2) =
      ![(if type = 1 ∨ type = 4 then a2 + b2 * I else a1 + b1 * I) / ((√2 : ℝ) : ℂ),
        (if type = 1 ∨ type = 4 then c2 + d2 * I else c1 + d1 * I) / ((√2 : ℝ) : ℂ)] := by
    unfold leptonDoublet Lagrangian.Spec.doublet
    split_ifs <;> rfl
  rw [h, lepton_scaled, bil_leptonR, bil_leptonS]
  split_ifs <;> ring

/-- For all values of the quark fields and of the eight scalar fields, and for every documented
type, `1/2 F2H1[a][b][k] ψ_a ψ_b φ_k` is the documented Yukawa interaction of the quarks. -/
theorem C78_2hdm_quarks (c : Constants) (v1 v2 : ℝ) (type : Int) (ht : Documented type)
    (ψ : Fin 12 → ℂ) (φ : Fin 8 → ℝ) :
    form (quarkTensor c v1 v2 type) ψ φ =
      quarkYukawa c.ckm (coupling v2 c.up) (coupling (downVev type v1 v2) c.down)
        (TwoDoublets.phi2 φ) (downDoublet type (TwoDoublets.phi1 φ) (TwoDoublets.phi2 φ))
        (quarkBasis ψ) := by
  rw [TwoDoublets.phi1, TwoDoublets.phi2, quarkYukawa_two, form_bil]
  simp only [Fin.sum_univ_eight, quarkTensor, vevDown_documented ht]
  by_cases h : type = 1 ∨ type = 3
  · simp only [h, if_true, bil_zero, bil_add, bil_smul, zero_add]
    simp [bil_zero, bil_add, bil_smul, bil_neg]
    ring
  · simp only [h, if_false, bil_zero, bil_add, bil_smul, zero_add]
    simp [bil_zero, bil_add, bil_smul, bil_neg]
    ring

/-- The same for the leptons. -/
theorem C78_2hdm_leptons (c : Constants) (v1 v2 : ℝ) (type : Int) (ht : Documented type)
    (ψ : Fin 9 → ℂ) (φ : Fin 8 → ℝ) :
    form (leptonTensor c v1 v2 type) ψ φ =
      leptonYukawa (coupling (leptonVev type v1 v2) c.charged)
        (leptonDoublet type (TwoDoublets.phi1 φ) (TwoDoublets.phi2 φ)) (leptonBasis ψ) := by
  rw [TwoDoublets.phi1, TwoDoublets.phi2, leptonYukawa_two, form_bil]
  simp only [Fin.sum_univ_eight, leptonTensor, vevLepton_documented ht]
  by_cases h : type = 1 ∨ type = 4
  · simp only [h, if_true, bil_zero, bil_add, bil_smul, zero_add]
    simp [bil_zero, bil_add, bil_smul, bil_neg]
    ring
  · simp only [h, if_false, bil_zero, bil_add, bil_smul, zero_add]
    simp [bil_zero, bil_add, bil_smul, bil_neg]
    ring

/-- The tensors do not depend on the order of the two fermions. -/
theorem C78_2hdm_symmetric (c : Constants) (v1 v2 : ℝ) (type : Int) (a b k : Nat) :
    quarkTensor c v1 v2 type [a, b, k] = quarkTensor c v1 v2 type [b, a, k] ∧
      leptonTensor c v1 v2 type [a, b, k] = leptonTensor c v1 v2 type [b, a, k] := by
  have hR2 := matrix_symmetric _ (upR_good c v2).1 (upR_good c v2).2 a b
  have hS2 := matrix_symmetric _ (upS_good c v2).1 (upS_good c v2).2 a b
  have hRD := matrix_symmetric _ (downR_good c (vevDown type v1 v2)).1 (downR_good c _).2 a b
  have hSD := matrix_symmetric _ (downS_good c (vevDown type v1 v2)).1 (downS_good c _).2 a b
  have hRL := matrix_symmetric _ (leptonR_good c (vevLepton type v1 v2)).1 (leptonR_good c _).2 a b
  have hSL := matrix_symmetric _ (leptonS_good c (vevLepton type v1 v2)).1 (leptonS_good c _).2 a b
  constructor
  · match k with
    | 0 | 1 | 2 | 3 | 4 | 5 | 6 | 7 => simp only [quarkTensor, hR2, hS2, hRD, hSD]
    | _ + 8 => rfl
  · match k with
    | 0 | 1 | 2 | 3 | 4 | 5 | 6 | 7 => simp only [leptonTensor, hRL, hSL]
    | _ + 8 => rfl

/-- For all values of the quark fields and of the nine scalar fields, and for every documented
type, `1/2 F2H1[a][b][k] ψ_a ψ_b φ_k` is the documented Yukawa interaction of the quarks. -/
theorem C78_n2hdm_quarks (c : Constants) (v1 v2 : ℝ) (type : Int) (ht : Documented type)
    (ψ : Fin 12 → ℂ) (φ : Fin 9 → ℝ) :
    form (quarkTensorN c v1 v2 type) ψ φ =
      quarkYukawa c.ckm (coupling v2 c.up) (coupling (downVev type v1 v2) c.down)
        (N2HDM.phi2 φ) (downDoublet type (N2HDM.phi1 φ) (N2HDM.phi2 φ))
        (quarkBasis ψ) := by
  rw [N2HDM.phi1, N2HDM.phi2, quarkYukawa_two, form_bil]
  simp only [Fin.sum_univ_castSucc, Finset.univ_eq_empty, Finset.sum_empty, quarkTensorN, vevDown_documented ht]
  by_cases h : type = 1 ∨ type = 3
  · simp only [h, if_true, bil_zero, bil_add, bil_smul, zero_add]
    simp [bil_zero, bil_add, bil_smul, bil_neg]
    ring
  · simp only [h, if_false, bil_zero, bil_add, bil_smul, zero_add]
    simp [bil_zero, bil_add, bil_smul, bil_neg]
    ring

/-- The same for the leptons. -/
theorem C78_n2hdm_leptons (c : Constants) (v1 v2 : ℝ) (type : Int) (ht : Documented type)
    (ψ : Fin 9 → ℂ) (φ : Fin 9 → ℝ) :
    form (leptonTensorN c v1 v2 type) ψ φ =
      leptonYukawa (coupling (leptonVev type v1 v2) c.charged)
        (leptonDoublet type (N2HDM.phi1 φ) (N2HDM.phi2 φ)) (leptonBasis ψ) := by
  rw [N2HDM.phi1, N2HDM.phi2, leptonYukawa_two, form_bil]
  simp only [Fin.sum_univ_castSucc, Finset.univ_eq_empty, Finset.sum_empty, leptonTensorN, vevLepton_documented ht]
  by_cases h : type = 1 ∨ type = 4
  · simp only [h, if_true, bil_zero, bil_add, bil_smul, zero_add]
    simp [bil_zero, bil_add, bil_smul, bil_neg]
    ring
  · simp only [h, if_false, bil_zero, bil_add, bil_smul, zero_add]
    simp [bil_zero, bil_add, bil_smul, bil_neg]
    ring

/-- The tensors do not depend on the order of the two fermions. -/
theorem C78_n2hdm_symmetric (c : Constants) (v1 v2 : ℝ) (type : Int) (a b k : Nat) :
    quarkTensorN c v1 v2 type [a, b, k] = quarkTensorN c v1 v2 type [b, a, k] ∧
      leptonTensorN c v1 v2 type [a, b, k] = leptonTensorN c v1 v2 type [b, a, k] := by
  have hR2 := matrix_symmetric _ (upR_good c v2).1 (upR_good c v2).2 a b
  have hS2 := matrix_symmetric _ (upS_good c v2).1 (upS_good c v2).2 a b
  have hRD := matrix_symmetric _ (downR_good c (vevDown type v1 v2)).1 (downR_good c _).2 a b
  have hSD := matrix_symmetric _ (downS_good c (vevDown type v1 v2)).1 (downS_good c _).2 a b
  have hRL := matrix_symmetric _ (leptonR_good c (vevLepton type v1 v2)).1 (leptonR_good c _).2 a b
  have hSL := matrix_symmetric _ (leptonS_good c (vevLepton type v1 v2)).1 (leptonS_good c _).2 a b
  constructor
  · match k with
    | 0 | 1 | 2 | 3 | 4 | 5 | 6 | 7 => simp only [quarkTensorN, hR2, hS2, hRD, hSD]
    | _ + 8 => rfl
  · match k with
    | 0 | 1 | 2 | 3 | 4 | 5 | 6 | 7 => simp only [leptonTensorN, hRL, hSL]
    | _ + 8 => rfl

end Verif.Yukawa.TwoHDM
