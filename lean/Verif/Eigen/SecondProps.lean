import Verif.Eigen.Second
import Mathlib.LinearAlgebra.Matrix.ToLinearEquiv
import Mathlib.Analysis.Calculus.Deriv.Mul
import Mathlib.Analysis.Calculus.Deriv.Add
import Mathlib.Tactic.Linarith
import Mathlib.Tactic.LinearCombination

/-!
# C126: the second derivatives of eigenvalues
-/

set_option linter.unusedSectionVars false

namespace Verif.Eigen.Second

open Matrix Filter Topology

/-- The libraries give eigenvalues and normalised eigenvectors of `M`, and solutions of all linear equations with
an invertible matrix. -/
structure IsLib {n : ℕ} (lib : Lib n) (M : Matrix (Fin n) (Fin n) ℝ) : Prop where
  unit : ∀ i, (fun j => lib.vectors M j i) ⬝ᵥ (fun j => lib.vectors M j i) = 1
  eigen : ∀ i, M *ᵥ (fun j => lib.vectors M j i) = lib.values M i • (fun j => lib.vectors M j i)
  solves : ∀ (C : Matrix (Fin n) (Fin n) ℝ) b, C.det ≠ 0 → C *ᵥ lib.solve C b = b

/-- The eigenvalue `l` is simple: all its eigenvectors are multiples of one. -/
def Simple {n : ℕ} (M : Matrix (Fin n) (Fin n) ℝ) (l : ℝ) : Prop :=
  ∃ v, ∀ w, M *ᵥ w = l • w → ∃ c : ℝ, w = c • v

/-- Matrices depending on two parameters, with their eigenvalues and normalised eigenvectors, near the origin:
`L`, `W` are an eigenvalue and an eigenvector of `A`, an index `x` is for the derivative at `s = 0` as a function
of `t`, an index `y` for the derivative with respect to `t` at `s = t = 0`. -/
structure Family {n : ℕ} (A : ℝ → ℝ → Matrix (Fin n) (Fin n) ℝ) (Ax : ℝ → Matrix (Fin n) (Fin n) ℝ)
    (Ay Axy : Matrix (Fin n) (Fin n) ℝ) (L : ℝ → ℝ → ℝ) (Lx : ℝ → ℝ) (ly : ℝ)
    (W : ℝ → ℝ → Fin n → ℝ) (Wx : ℝ → Fin n → ℝ) (wy : Fin n → ℝ) : Prop where
  near : ∀ᶠ t in 𝓝 (0 : ℝ), ∀ᶠ s in 𝓝 (0 : ℝ),
    (A s t).IsSymm ∧ A s t *ᵥ W s t = L s t • W s t ∧ W s t ⬝ᵥ W s t = 1
  matX : ∀ᶠ t in 𝓝 (0 : ℝ), ∀ i j, HasDerivAt (fun s => A s t i j) (Ax t i j) 0
  valX : ∀ᶠ t in 𝓝 (0 : ℝ), HasDerivAt (fun s => L s t) (Lx t) 0
  vecX : ∀ᶠ t in 𝓝 (0 : ℝ), ∀ i, HasDerivAt (fun s => W s t i) (Wx t i) 0
  matY : ∀ i j, HasDerivAt (fun t => A 0 t i j) (Ay i j) 0
  matXY : ∀ i j, HasDerivAt (fun t => Ax t i j) (Axy i j) 0
  valY : HasDerivAt (fun t => L 0 t) ly 0
  vecY : ∀ i, HasDerivAt (fun t => W 0 t i) (wy i) 0

variable {n : ℕ}

theorem symm_dot {M : Matrix (Fin n) (Fin n) ℝ} (h : M.IsSymm) (u v : Fin n → ℝ) :
    u ⬝ᵥ M *ᵥ v = (M *ᵥ u) ⬝ᵥ v := by
  rw [dotProduct_mulVec, ← mulVec_transpose, h.eq]

/-- The first derivatives along one curve. -/
theorem first (A : ℝ → Matrix (Fin n) (Fin n) ℝ) (L : ℝ → ℝ) (W : ℝ → Fin n → ℝ)
    (A' : Matrix (Fin n) (Fin n) ℝ) (l' : ℝ) (w' : Fin n → ℝ)
    (near : ∀ᶠ s in 𝓝 (0 : ℝ), (A s).IsSymm ∧ A s *ᵥ W s = L s • W s ∧ W s ⬝ᵥ W s = 1)
    (hA : ∀ i j, HasDerivAt (fun s => A s i j) (A' i j) 0) (hL : HasDerivAt L l' 0)
    (hW : ∀ i, HasDerivAt (fun s => W s i) (w' i) 0) :
    l' = W 0 ⬝ᵥ A' *ᵥ W 0 ∧ A 0 *ᵥ w' - L 0 • w' = -(A' *ᵥ W 0 - l' • W 0) ∧ W 0 ⬝ᵥ w' = 0 ∧
      A'.IsSymm := by
  obtain ⟨hs, he, hn⟩ := near.self_of_nhds
  have e1 : A' *ᵥ W 0 + A 0 *ᵥ w' = l' • W 0 + L 0 • w' := by
    funext i
    have h1 : HasDerivAt (fun s => ∑ j, A s i j * W s j) (∑ j, (A' i j * W 0 j + A 0 i j * w' j)) 0 :=
      HasDerivAt.fun_sum fun j _ => (hA i j).fun_mul (hW j)
    have h2 : HasDerivAt (fun s => L s * W s i) (l' * W 0 i + L 0 * w' i) 0 := hL.fun_mul (hW i)
    have h3 : (fun s => ∑ j, A s i j * W s j) =ᶠ[𝓝 0] fun s => L s * W s i := by
      filter_upwards [near] with s hs
      exact congrFun hs.2.1 i
    have := h1.unique (h2.congr_of_eventuallyEq h3)
    rw [Finset.sum_add_distrib] at this
    exact this
  have e2 : W 0 ⬝ᵥ w' = 0 := by
    have h1 : HasDerivAt (fun s => ∑ j, W s j * W s j) (∑ j, (w' j * W 0 j + W 0 j * w' j)) 0 :=
      HasDerivAt.fun_sum fun j _ => (hW j).fun_mul (hW j)
    have h3 : (fun s => ∑ j, W s j * W s j) =ᶠ[𝓝 0] fun _ => (1 : ℝ) := by
      filter_upwards [near] with s hs
      exact hs.2.2
    have h4 := h1.unique ((hasDerivAt_const (0 : ℝ) (1 : ℝ)).congr_of_eventuallyEq h3)
    rw [Finset.sum_add_distrib] at h4
    have h5 : ∑ j, w' j * W 0 j = ∑ j, W 0 j * w' j := Finset.sum_congr rfl fun j _ => mul_comm _ _
    rw [h5] at h4
    show ∑ j, W 0 j * w' j = 0
    linarith
  have e3 : l' = W 0 ⬝ᵥ A' *ᵥ W 0 := by
    have := congrArg (fun u => W 0 ⬝ᵥ u) e1
    simp only [dotProduct_add, dotProduct_smul, hn, e2, smul_eq_mul] at this
    rw [symm_dot hs, he, smul_dotProduct, e2] at this
    simp at this
    exact this.symm
  refine ⟨e3, ?_, e2, ?_⟩
  · have : A 0 *ᵥ w' - L 0 • w' = (A' *ᵥ W 0 + A 0 *ᵥ w') - A' *ᵥ W 0 - L 0 • w' := by abel
    rw [this, e1]
    abel
  · ext i j
    refine (hA j i).unique ((hA i j).congr_of_eventuallyEq ?_)
    filter_upwards [near] with s hs
    exact hs.1.apply i j

theorem sub_smul_mulVec (M : Matrix (Fin n) (Fin n) ℝ) (l : ℝ) (u : Fin n → ℝ) :
    (M - l • (1 : Matrix (Fin n) (Fin n) ℝ)) *ᵥ u = M *ᵥ u - l • u := by
  rw [sub_mulVec, smul_mulVec, one_mulVec]

theorem sub_smul_symm {M : Matrix (Fin n) (Fin n) ℝ} (h : M.IsSymm) (l : ℝ) :
    (M - l • (1 : Matrix (Fin n) (Fin n) ℝ)).IsSymm := by
  unfold IsSymm
  rw [transpose_sub, transpose_smul, transpose_one, h.eq]

theorem simple_vec {M : Matrix (Fin n) (Fin n) ℝ} {l : ℝ} (hsim : Simple M l) {v : Fin n → ℝ}
    (hv : M *ᵥ v = l • v) (hn : v ⬝ᵥ v = 1) : ∀ w, M *ᵥ w = l • w → w = (v ⬝ᵥ w) • v := by
  obtain ⟨v0, h0⟩ := hsim
  obtain ⟨c, hc⟩ := h0 v hv
  intro w hw
  obtain ⟨d, hd⟩ := h0 w hw
  have hcc : c * c * (v0 ⬝ᵥ v0) = 1 := by
    have := hn
    rw [hc, smul_dotProduct, dotProduct_smul, smul_eq_mul, smul_eq_mul] at this
    linarith
  rw [hc, hd, smul_dotProduct, dotProduct_smul, smul_smul, smul_eq_mul, smul_eq_mul]
  congr 1
  linear_combination (-d) * hcc

/-- The solution of the equations of the code is the derivative of the eigenvector. -/
theorem vDiff_eq {M D : Matrix (Fin n) (Fin n) ℝ} {l d : ℝ} {v w' : Fin n → ℝ}
    {solve : Matrix (Fin n) (Fin n) ℝ → (Fin n → ℝ) → Fin n → ℝ}
    (hsol : ∀ (C : Matrix (Fin n) (Fin n) ℝ) b, C.det ≠ 0 → C *ᵥ solve C b = b)
    (hM : M.IsSymm) (hsim : Simple M l) (hv : M *ᵥ v = l • v) (hn : v ⬝ᵥ v = 1)
    (h1 : M *ᵥ w' - l • w' = -(D *ᵥ v - d • v)) (h2 : v ⬝ᵥ w' = 0) :
    vDiff solve M D l d v = w' := by
  set B := M - l • (1 : Matrix (Fin n) (Fin n) ℝ) with hB
  set C := Bᵀ * B + vecMulVec v v with hC
  have hBs : Bᵀ = B := (sub_smul_symm hM l).eq
  have hCv : ∀ u, C *ᵥ u = B *ᵥ (B *ᵥ u) + (v ⬝ᵥ u) • v := by
    intro u
    rw [hC, add_mulVec, ← mulVec_mulVec, hBs, vecMulVec_mulVec]
    congr 1
    simp
  have hker : ∀ u, C *ᵥ u = 0 → u = 0 := by
    intro u hu
    have h := congrArg (fun z => u ⬝ᵥ z) hu
    simp only [hCv, dotProduct_add, dotProduct_zero, dotProduct_smul, smul_eq_mul] at h
    rw [symm_dot (M := B) hBs, dotProduct_comm u v] at h
    have hp : 0 ≤ (B *ᵥ u) ⬝ᵥ (B *ᵥ u) := Finset.sum_nonneg fun i _ => mul_self_nonneg _
    have hq := mul_self_nonneg (v ⬝ᵥ u)
    have hz : v ⬝ᵥ u = 0 := mul_self_eq_zero.1 (by linarith)
    have hz' : B *ᵥ u = 0 := by
      have : (B *ᵥ u) ⬝ᵥ (B *ᵥ u) = 0 := by linarith
      funext i
      have h' := (Finset.sum_eq_zero_iff_of_nonneg fun i _ => mul_self_nonneg ((B *ᵥ u) i)).1 this i (Finset.mem_univ _)
      exact mul_self_eq_zero.1 h'
    have : M *ᵥ u = l • u := by
      have := hz'
      rw [hB, sub_smul_mulVec] at this
      exact sub_eq_zero.1 this
    rw [simple_vec hsim hv hn u this, hz, zero_smul]
  have hdet : C.det ≠ 0 := by
    intro h
    obtain ⟨u, hu, hu'⟩ := exists_mulVec_eq_zero_iff.2 h
    exact hu (hker u hu')
  have hx := hsol C (-((Bᵀ * (D - d • (1 : Matrix (Fin n) (Fin n) ℝ))) *ᵥ v)) hdet
  have hw : C *ᵥ w' = -((Bᵀ * (D - d • (1 : Matrix (Fin n) (Fin n) ℝ))) *ᵥ v) := by
    rw [hCv, h2, zero_smul, add_zero, hBs, ← mulVec_mulVec, sub_smul_mulVec D]
    rw [show B *ᵥ w' = -(D *ᵥ v - d • v) by rw [hB, sub_smul_mulVec, h1], mulVec_neg]
  have : C *ᵥ (vDiff solve M D l d v - w') = 0 := by
    rw [mulVec_sub, hw]
    exact sub_eq_zero.2 hx
  exact sub_eq_zero.1 (hker _ this)

/-- The row of one eigenvalue. -/
theorem row_eq {A : ℝ → ℝ → Matrix (Fin n) (Fin n) ℝ} {Ax Ay Axy L Lx ly W Wx wy}
    (F : Family A Ax Ay Axy L Lx ly W Wx wy) {v : Fin n → ℝ}
    {solve : Matrix (Fin n) (Fin n) ℝ → (Fin n → ℝ) → Fin n → ℝ}
    (hsol : ∀ (C : Matrix (Fin n) (Fin n) ℝ) b, C.det ≠ 0 → C *ᵥ solve C b = b)
    (hsim : Simple (A 0 0) (L 0 0)) (hv : A 0 0 *ᵥ v = L 0 0 • v) (hn : v ⬝ᵥ v = 1) :
    ∃ d, row solve (A 0 0) (Ax 0) Ay Axy (L 0 0) v = [L 0 0, Lx 0, ly, d] ∧ HasDerivAt Lx d 0 := by
  have nearY : ∀ᶠ t in 𝓝 (0 : ℝ),
      (A 0 t).IsSymm ∧ A 0 t *ᵥ W 0 t = L 0 t • W 0 t ∧ W 0 t ⬝ᵥ W 0 t = 1 := by
    filter_upwards [F.near] with t ht
    exact ht.self_of_nhds
  obtain ⟨hs, he, hN⟩ := nearY.self_of_nhds
  have hX := fun t a b c d => first (fun s => A s t) (fun s => L s t) (fun s => W s t) (Ax t) (Lx t) (Wx t) a b c d
  obtain ⟨x1, x2, x3, _⟩ := hX 0 F.near.self_of_nhds F.matX.self_of_nhds F.valX.self_of_nhds
    F.vecX.self_of_nhds
  obtain ⟨y1, y2, y3, y4⟩ := first (fun t => A 0 t) (fun t => L 0 t) (fun t => W 0 t) Ay ly wy nearY F.matY F.valY
    F.vecY
  -- the derivative of the first derivative
  have hd : HasDerivAt Lx (wy ⬝ᵥ Ax 0 *ᵥ W 0 0 + (W 0 0 ⬝ᵥ Axy *ᵥ W 0 0 + W 0 0 ⬝ᵥ Ax 0 *ᵥ wy)) 0 := by
    have h1 : HasDerivAt (fun t => ∑ i, W 0 t i * ∑ j, Ax t i j * W 0 t j)
        (∑ i, (wy i * (∑ j, Ax 0 i j * W 0 0 j)
          + W 0 0 i * ∑ j, (Axy i j * W 0 0 j + Ax 0 i j * wy j))) 0 :=
      HasDerivAt.fun_sum fun i _ => (F.vecY i).fun_mul
        (HasDerivAt.fun_sum fun j _ => (F.matXY i j).fun_mul (F.vecY j))
    have h2 : Lx =ᶠ[𝓝 0] fun t => ∑ i, W 0 t i * ∑ j, Ax t i j * W 0 t j := by
      filter_upwards [F.near, F.matX, F.valX, F.vecX] with t a b c d
      exact (hX t a b c d).1
    refine (h1.congr_of_eventuallyEq h2).congr_deriv ?_
    simp only [Finset.sum_add_distrib, mul_add]
    rfl
  -- the eigenvector of the solver is the one of the family up to the sign
  obtain ⟨c, hc⟩ : ∃ c : ℝ, v = c • W 0 0 := ⟨_, simple_vec hsim he hN v hv⟩
  have hcc : c * c = 1 := by
    have := hn
    rw [hc, smul_dotProduct, dotProduct_smul, hN, smul_eq_mul, smul_eq_mul, mul_one] at this
    exact this
  have q : ∀ (Q : Matrix (Fin n) (Fin n) ℝ) (u : Fin n → ℝ), v ⬝ᵥ Q *ᵥ (c • u) = W 0 0 ⬝ᵥ Q *ᵥ u := by
    intro Q u
    rw [hc, mulVec_smul, smul_dotProduct, dotProduct_smul, smul_smul, hcc, one_smul]
  have hx : v ⬝ᵥ Ax 0 *ᵥ v = Lx 0 := by
    have := q (Ax 0) (W 0 0)
    rw [← hc] at this
    rw [this, x1]
  have hy : v ⬝ᵥ Ay *ᵥ v = ly := by
    have := q Ay (W 0 0)
    rw [← hc] at this
    rw [this, y1]
  have hxy : v ⬝ᵥ Axy *ᵥ v = W 0 0 ⬝ᵥ Axy *ᵥ W 0 0 := by
    have := q Axy (W 0 0)
    rw [← hc] at this
    exact this
  have scale : ∀ (D : Matrix (Fin n) (Fin n) ℝ) (d : ℝ) (w' : Fin n → ℝ),
      A 0 0 *ᵥ w' - L 0 0 • w' = -(D *ᵥ W 0 0 - d • W 0 0) → W 0 0 ⬝ᵥ w' = 0 →
      vDiff solve (A 0 0) D (L 0 0) d v = c • w' := by
    intro D d w' h1 h2
    refine vDiff_eq hsol hs hsim hv hn ?_ ?_
    · rw [hc, mulVec_smul, mulVec_smul, smul_comm (L 0 0) c, smul_comm d c, ← smul_sub, ← smul_sub, h1, smul_neg]
    · rw [hc, smul_dotProduct, dotProduct_smul, h2, smul_zero, smul_zero]
  have sx := scale (Ax 0) (Lx 0) (Wx 0) x2 x3
  have sy := scale Ay ly wy y2 y3
  refine ⟨_, ?_, hd⟩
  unfold row
  dsimp only
  rw [hx, hy, sx, sy, hxy, q, q, sub_smul_mulVec, sub_smul_mulVec, dotProduct_sub, dotProduct_sub,
    dotProduct_smul, dotProduct_smul, y3, x3, smul_zero, smul_zero, sub_zero, sub_zero]
  have k : W 0 0 ⬝ᵥ Ay *ᵥ Wx 0 = wy ⬝ᵥ Ax 0 *ᵥ W 0 0 := by
    have a1 : (A 0 0 *ᵥ wy - L 0 0 • wy) ⬝ᵥ Wx 0 = wy ⬝ᵥ (A 0 0 *ᵥ Wx 0 - L 0 0 • Wx 0) := by
      rw [sub_dotProduct, dotProduct_sub, symm_dot hs, smul_dotProduct, dotProduct_smul]
    rw [y2, x2, neg_dotProduct, dotProduct_neg, sub_dotProduct, dotProduct_sub, smul_dotProduct, dotProduct_smul,
      x3, dotProduct_comm wy (W 0 0), y3, ← symm_dot y4] at a1
    simp at a1
    exact a1
  rw [k]
  simp only [List.cons.injEq, true_and, and_true]
  ring

theorem flatMap_get {α : Type} {n : ℕ} (f : Fin n → List α) (hf : ∀ i, (f i).length = 4) (i : Fin n) (j : ℕ)
    (hj : j < 4) : ((List.finRange n).flatMap f)[4 * (i : ℕ) + j]? = (f i)[j]? := by
  induction n with
  | zero => exact i.elim0
  | succ n ih =>
    rw [List.finRange_succ, List.flatMap_cons]
    cases i using Fin.cases with
    | zero => rw [List.getElem?_append_left (by rw [hf]; simp; omega)]; simp
    | succ i =>
      rw [List.getElem?_append_right (by rw [hf]; simp; omega), List.flatMap_map, hf,
        ← ih (fun i => f i.succ) (fun i => hf _) i]
      congr 1
      simp
      omega

/-- C126: a matrix that is not quadratic is refused. -/
theorem C126_refused {r c : ℕ} (lib : Lib r) (M Dx Dy Dxy : Matrix (Fin r) (Fin c) ℝ) (h : c ≠ r) :
    second lib M Dx Dy Dxy = .err .runtime := dif_neg h

theorem evThres_eq : evThres = 0 := by
  unfold evThres
  rw [Nat.floor_eq_zero]
  norm_num

theorem second_eq (lib : Lib n) (M Dx Dy Dxy : Matrix (Fin n) (Fin n) ℝ) (h0 : n ≠ 0) :
    second lib M Dx Dy Dxy = .ok ([], (List.finRange n).map (lib.values M) ++
      (List.finRange n).flatMap fun i =>
        row lib.solve M Dx Dy Dxy (lib.values M i) (fun j => lib.vectors M j i)) := by
  unfold second
  rw [dif_pos rfl]
  unfold square repeated
  rw [if_neg h0]
  have : ((List.range (n - 1)).filter fun i =>
    if h : i + 1 < n then decide (|lib.values M ⟨i, by omega⟩ - lib.values M ⟨i + 1, h⟩| < (evThres : ℝ))
      else false) = [] := by
    rw [List.filter_eq_nil_iff]
    intro i _
    split
    · rw [evThres_eq]
      simp
    · simp
  rw [this]
  rfl

/-- C126: for a symmetric matrix with simple eigenvalues that is part of a family of symmetric matrices with two
parameters the result has the eigenvalues first, and then for each eigenvalue, in the same order, the eigenvalue
again, its derivatives with respect to the two parameters, and the mixed second derivative. -/
theorem C126_second (lib : Lib n) (A : ℝ → ℝ → Matrix (Fin n) (Fin n) ℝ)
    (Ax : ℝ → Matrix (Fin n) (Fin n) ℝ) (Ay Axy : Matrix (Fin n) (Fin n) ℝ) (hpos : n ≠ 0)
    (L : Fin n → ℝ → ℝ → ℝ) (Lx : Fin n → ℝ → ℝ) (ly : Fin n → ℝ) (W : Fin n → ℝ → ℝ → Fin n → ℝ)
    (Wx : Fin n → ℝ → Fin n → ℝ) (wy : Fin n → Fin n → ℝ)
    (F : ∀ i, Family A Ax Ay Axy (L i) (Lx i) (ly i) (W i) (Wx i) (wy i))
    (hlib : IsLib lib (A 0 0)) (hval : ∀ i, lib.values (A 0 0) i = L i 0 0) (hsim : ∀ i, Simple (A 0 0) (L i 0 0)) :
    ∃ res, second lib (A 0 0) (Ax 0) Ay Axy = .ok ([], res) ∧ res.length = 5 * n ∧
      ∀ i : Fin n, res[(i : ℕ)]? = some (L i 0 0) ∧ res[n + 4 * i]? = some (L i 0 0) ∧
        res[n + (4 * i + 1)]? = some (Lx i 0) ∧ res[n + (4 * i + 2)]? = some (ly i) ∧
        ∃ d, res[n + (4 * i + 3)]? = some d ∧ HasDerivAt (Lx i) d 0 := by
  have hrow : ∀ i, ∃ d, row lib.solve (A 0 0) (Ax 0) Ay Axy (lib.values (A 0 0) i)
      (fun j => lib.vectors (A 0 0) j i) = [L i 0 0, Lx i 0, ly i, d] ∧ HasDerivAt (Lx i) d 0 := by
    intro i
    rw [hval]
    exact row_eq (F i) hlib.solves (hsim i) (by rw [← hval]; exact hlib.eigen i) (hlib.unit i)
  have hlen : ∀ i, (row lib.solve (A 0 0) (Ax 0) Ay Axy (lib.values (A 0 0) i)
      (fun j => lib.vectors (A 0 0) j i)).length = 4 := fun i => rfl
  refine ⟨_, second_eq lib _ _ _ _ hpos, ?_⟩
  · have hl : ((List.finRange n).map (lib.values (A 0 0))).length = n := by simp
    refine ⟨?_, ?_⟩
    · rw [List.length_append, hl, List.length_flatMap]
      simp only [hlen]
      simp
      omega
    · intro i
      obtain ⟨d, hd, hd'⟩ := hrow i
      have g : ∀ j : ℕ, j < 4 → ((List.finRange n).map (lib.values (A 0 0)) ++
          (List.finRange n).flatMap fun i => row lib.solve (A 0 0) (Ax 0) Ay Axy (lib.values (A 0 0) i)
            (fun j => lib.vectors (A 0 0) j i))[n + (4 * (i : ℕ) + j)]? = [L i 0 0, Lx i 0, ly i, d][j]? := by
        intro j hj
        rw [List.getElem?_append_right (by rw [hl]; omega), hl, Nat.add_sub_cancel_left,
          flatMap_get _ hlen i j hj, hd]
      refine ⟨?_, g 0 (by omega), g 1 (by omega), g 2 (by omega), d, g 3 (by omega), hd'⟩
      rw [List.getElem?_append_left (by rw [hl]; exact i.2)]
      simp [hval]

/-- C126 is false of the code in one respect: repeated eigenvalues, for which the result is meaningless, are never
reported.  The threshold is stored as an unsigned integer and is zero. -/
theorem C126_repeated_fails (lib : Lib n) (M Dx Dy Dxy : Matrix (Fin n) (Fin n) ℝ) (log : List ℕ) (res : List ℝ)
    (h : second lib M Dx Dy Dxy = .ok (log, res)) : log = [] := by
  by_cases h0 : n = 0
  · subst h0
    cases h
  · rw [second_eq lib _ _ _ _ h0] at h
    exact (Prod.mk.inj (Outcome.ok.inj h)).1.symm

/-- C126: for the identity matrix, all of whose eigenvalues are the same, the numbers depend on the choice of the
eigenvectors: the row of the first unit vector and the row of the diagonal differ although both are eigenvectors
for the same eigenvalue.  The first derivative is wrong for the second of them: the eigenvalues of
`1 + s diag(1, 3)` are `1 + s` and `1 + 3 s`. -/
theorem C126_degenerate_fails (solve : Matrix (Fin 2) (Fin 2) ℝ → (Fin 2 → ℝ) → Fin 2 → ℝ) (r : ℝ) (hr : r * r = 1 / 2) :
    (row solve 1 (diagonal ![1, 3]) 0 0 1 ![1, 0])[1]? = some 1 ∧
    (row solve 1 (diagonal ![1, 3]) 0 0 1 ![r, r])[1]? = some 2 := by
  constructor
  · simp only [row, List.getElem?_cons_succ, List.getElem?_cons_zero, Option.some.injEq]
    simp [dotProduct, Fin.sum_univ_two, mulVec_diagonal]
  · simp only [row, List.getElem?_cons_succ, List.getElem?_cons_zero, Option.some.injEq]
    simp [dotProduct, Fin.sum_univ_two, mulVec_diagonal]
    linear_combination 4 * hr

/-- C126 is false of the code for an empty matrix: it reads behind the end of the eigenvalues. -/
theorem C126_empty_fails (lib : Lib 0) (M Dx Dy Dxy : Matrix (Fin 0) (Fin 0) ℝ) :
    second lib M Dx Dy Dxy = .ub .outOfBounds := by
  unfold second
  rw [dif_pos rfl]
  rfl

/-- Hypotheses of `C126_second`: the matrices `diag(1 + s t, 2 + s)`. -/
example : ∃ (lib : Lib 2) (A : ℝ → ℝ → Matrix (Fin 2) (Fin 2) ℝ) (Ax : ℝ → Matrix (Fin 2) (Fin 2) ℝ)
    (Ay Axy : Matrix (Fin 2) (Fin 2) ℝ) (L : Fin 2 → ℝ → ℝ → ℝ) (Lx : Fin 2 → ℝ → ℝ) (ly : Fin 2 → ℝ)
    (W : Fin 2 → ℝ → ℝ → Fin 2 → ℝ) (Wx : Fin 2 → ℝ → Fin 2 → ℝ) (wy : Fin 2 → Fin 2 → ℝ),
    (∀ i, Family A Ax Ay Axy (L i) (Lx i) (ly i) (W i) (Wx i) (wy i)) ∧ IsLib lib (A 0 0) ∧
    (∀ i, lib.values (A 0 0) i = L i 0 0) ∧ ∀ i, Simple (A 0 0) (L i 0 0) := by
  have hA : ∀ s t : ℝ, ∀ i, diagonal ![1 + s * t, 2 + s] *ᵥ Pi.single i 1
      = ![1 + s * t, 2 + s] i • (Pi.single i 1 : Fin 2 → ℝ) := by
    intro s t i
    funext j
    rw [mulVec_diagonal]
    by_cases h : j = i
    · subst h; simp
    · simp [h]
  refine ⟨⟨fun _ => ![1, 2], fun _ => 1, fun C b => C⁻¹ *ᵥ b⟩, fun s t => diagonal ![1 + s * t, 2 + s],
    fun t => diagonal ![t, 1], 0, diagonal ![1, 0], fun i s t => ![1 + s * t, 2 + s] i, fun i t => ![t, 1] i,
    fun _ => 0, fun i _ _ => Pi.single i 1, fun _ _ => 0, fun _ => 0, fun i => ?_, ?_, ?_, ?_⟩
  · have d1 : ∀ t k, HasDerivAt (fun s : ℝ => ![1 + s * t, 2 + s] k) (![t, 1] k) 0 := by
      intro t k
      fin_cases k
      · simpa using ((hasDerivAt_id (0 : ℝ)).mul_const t).const_add 1
      · simpa using (hasDerivAt_id (0 : ℝ)).const_add 2
    have d2 : ∀ k, HasDerivAt (fun t : ℝ => ![1 + 0 * t, 2 + 0] k) 0 0 := by
      intro k
      fin_cases k
      · simpa using hasDerivAt_const (0 : ℝ) (1 : ℝ)
      · simpa using hasDerivAt_const (0 : ℝ) (2 : ℝ)
    have d3 : ∀ k, HasDerivAt (fun t : ℝ => ![t, 1] k) (![1, 0] k) 0 := by
      intro k
      fin_cases k
      · simpa using hasDerivAt_id' (0 : ℝ)
      · simpa using hasDerivAt_const (0 : ℝ) (1 : ℝ)
    refine ⟨.of_forall fun t => .of_forall fun s => ⟨diagonal_transpose _, hA s t i, by simp⟩,
      .of_forall fun t k j => ?_, .of_forall fun t => d1 t i,
      .of_forall fun t k => hasDerivAt_const _ _, fun k j => ?_, fun k j => ?_, d2 i,
      fun k => hasDerivAt_const _ _⟩
    · by_cases h : k = j
      · subst h; simpa using d1 t k
      · simpa [h] using hasDerivAt_const (0 : ℝ) (0 : ℝ)
    · by_cases h : k = j
      · subst h; simpa using d2 k
      · simpa [h] using hasDerivAt_const (0 : ℝ) (0 : ℝ)
    · by_cases h : k = j
      · subst h; simpa using d3 k
      · simpa [h] using hasDerivAt_const (0 : ℝ) (0 : ℝ)
  · refine ⟨fun i => ?_, fun i => ?_, fun C b h => ?_⟩
    · rw [dotProduct, Fin.sum_univ_two]
      fin_cases i <;> simp [Matrix.one_apply]
    · funext j
      fin_cases i <;> fin_cases j <;> simp [mulVec_diagonal]
    · rw [mulVec_mulVec, mul_nonsing_inv _ (isUnit_iff_ne_zero.2 h), one_mulVec]
  · intro i; fin_cases i <;> simp
  · intro i
    refine ⟨Pi.single i 1, fun w hw => ⟨w i, ?_⟩⟩
    funext j
    have h0 := congrFun hw 0
    have h1 := congrFun hw 1
    rw [mulVec_diagonal] at h0 h1
    fin_cases i <;> fin_cases j <;> simp at h0 h1 ⊢ <;> linarith

end Verif.Eigen.Second
