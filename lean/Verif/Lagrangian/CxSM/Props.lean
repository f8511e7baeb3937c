import Verif.Lagrangian.CxSM.Model
import Verif.Lagrangian.Eval
import Verif.Lagrangian.Spec
import Verif.Lagrangian.Invariance
import Verif.Lagrangian.Expansions

/-!
# The standard model with a complex singlet implements its Lagrangian
-/

set_option linter.unusedSectionVars false
set_option linter.unusedSimpArgs false
set_option linter.unusedVariables false

namespace Verif.Lagrangian.CxSM

open Verif.Potential
open Verif.Potential.Spec (polynomial)
open Verif.Lagrangian.Spec

theorem l1_distinct (p : Par) : Distinct (l1 p) := by
  simp only [Distinct, l1, List.map_cons, List.map_nil]; decide +kernel

theorem l2_distinct (p : Par) : Distinct (l2 p) := by
  simp only [Distinct, l2, List.map_cons, List.map_nil]; decide +kernel

theorem l4_distinct (p : Par) : Distinct (l4 p) :=
  distinct_of_chain _ (by simp only [l4, List.map_cons, List.map_nil]; decide +kernel)

theorem l1_rank (p : Par) : Rank 1 (l1 p) :=
  rank_of _ _ (by simp only [l1, List.map_cons, List.map_nil]; decide +kernel)

theorem l2_rank (p : Par) : Rank 2 (l2 p) :=
  rank_of _ _ (by simp only [l2, List.map_cons, List.map_nil]; decide +kernel)

theorem l4_rank (p : Par) : Rank 4 (l4 p) :=
  rank_of _ _ (by simp only [l4, List.map_cons, List.map_nil]; decide +kernel)

theorem ctL1_distinct (c : CT) : Distinct (ctL1 c) := by
  simp only [Distinct, ctL1, List.map_cons, List.map_nil]; decide +kernel

theorem ctL1_rank (c : CT) : Rank 1 (ctL1 c) :=
  rank_of _ _ (by simp only [ctL1, List.map_cons, List.map_nil]; decide +kernel)

theorem g2h2_distinct (g gs : ℝ) : Distinct (g2h2 g gs) := by
  simp only [Distinct, g2h2, List.map_cons, List.map_nil]; decide +kernel

/-- The counterterms of the parameters as parameters. -/
def shift (c : CT) : Par :=
  ⟨c.dmsq, c.dlambda, c.ddelta2, c.db2, c.dd2, c.dReb1, c.dImb1, c.dRea1, c.dIma1⟩

theorem ctL2_eq (c : CT) : ctL2 c = l2 (shift c) := by
  simp only [ctL2, l2, shift]; ring_nf

theorem ctL4_eq (c : CT) : ctL4 c = l4 (shift c) := rfl

theorem tree_eq (p : Par) :
    tree p = curv 6 (look (l1 p)) (look (l2 p)) (look []) (look (l4 p)) := by
  rw [tree, assign_look _ (l1_distinct p), assign_look _ (l2_distinct p),
    assign_look _ (l4_distinct p), zero_look]

theorem counter_eq (c : CT) : counter c =
    curv 6 (look (ctL1 c)) (look (l2 (shift c))) (look []) (look (l4 (shift c))) := by
  rw [counter, ctL2_eq, ctL4_eq, assign_look _ (ctL1_distinct c), assign_look _ (l2_distinct _),
    assign_look _ (l4_distinct _), zero_look]

theorem vev_sum (h s a : ℝ) (f : Fin 6 → ℝ) (hf : ∀ k, vevTree h s a k = 0 → f k = 0) :
    ∑ k, f k = f 3 + f 4 + f 5 := by
  refine sum_support3 3 4 5 (by decide) (by decide) (by decide) (vevTree h s a)
    (fun k h3 h4 h5 => ?_) f hf
  fin_cases k <;> first | rfl | exact absurd rfl h3 | exact absurd rfl h4 | exact absurd rfl h5

/-- The Higgs doublet of the fields, ClassPotentialCxSM.h. -/
noncomputable def higgs (φ : Fin 6 → ℝ) : Fin 2 → ℂ := doublet (φ 0) (φ 1) (φ 3) (φ 2)

/-- The complex singlet. -/
noncomputable def singlet (φ : Fin 6 → ℝ) : ℂ := (φ 4 + φ 5 * Complex.I) / (√2 : ℝ)

/-- The documented scalar potential. -/
noncomputable def potential (msq lam delta2 b2 d2 : ℝ) (b1 a1 : ℂ) (H : Fin 2 → ℂ) (S : ℂ) : ℂ :=
  msq / 2 * dagger H H + lam / 4 * dagger H H ^ 2 +
    delta2 / 2 * dagger H H * ((starRingEnd ℂ) S * S) + b2 / 2 * ((starRingEnd ℂ) S * S) +
    d2 / 4 * ((starRingEnd ℂ) S * S) ^ 2 + plusCC (b1 / 4 * S ^ 2 + a1 * S)

theorem higgs_square (φ : Fin 6 → ℝ) : dagger (higgs φ) (higgs φ) =
    (((φ 0 ^ 2 + φ 1 ^ 2 + φ 2 ^ 2 + φ 3 ^ 2) / 2 : ℝ) : ℂ) := by
  rw [higgs, dagger_doublet]
  push_cast
  ring

theorem singlet_square (φ : Fin 6 → ℝ) : (starRingEnd ℂ) (singlet φ) * singlet φ =
    (((φ 4 ^ 2 + φ 5 ^ 2) / 2 : ℝ) : ℂ) := by
  simp only [singlet, div_eq_mul_inv, map_mul, map_add, map_inv₀, Complex.conj_ofReal,
    Complex.conj_I]
  push_cast
  linear_combination (φ 4 + φ 5 * Complex.I) * (φ 4 - φ 5 * Complex.I) * sqrt2_inv_sq -
    (φ 5 : ℂ) ^ 2 / 2 * Complex.I_sq

theorem potential_real (msq lam delta2 b2 d2 : ℝ) (b1 a1 : ℂ) (φ : Fin 6 → ℝ) :
    potential msq lam delta2 b2 d2 b1 a1 (higgs φ) (singlet φ) =
      ((msq / 2 * ((φ 0 ^ 2 + φ 1 ^ 2 + φ 2 ^ 2 + φ 3 ^ 2) / 2) +
        lam / 4 * ((φ 0 ^ 2 + φ 1 ^ 2 + φ 2 ^ 2 + φ 3 ^ 2) / 2) ^ 2 +
        delta2 / 2 * ((φ 0 ^ 2 + φ 1 ^ 2 + φ 2 ^ 2 + φ 3 ^ 2) / 2) * ((φ 4 ^ 2 + φ 5 ^ 2) / 2) +
        b2 / 2 * ((φ 4 ^ 2 + φ 5 ^ 2) / 2) + d2 / 4 * ((φ 4 ^ 2 + φ 5 ^ 2) / 2) ^ 2 +
        (b1.re / 4 * (φ 4 ^ 2 - φ 5 ^ 2) - b1.im / 2 * φ 4 * φ 5 +
        √2 * (a1.re * φ 4 - a1.im * φ 5)) : ℝ) : ℂ) := by
  have key : plusCC (b1 / 4 * singlet φ ^ 2 + a1 * singlet φ) =
      ((b1.re / 4 * (φ 4 ^ 2 - φ 5 ^ 2) - b1.im / 2 * φ 4 * φ 5 +
        √2 * (a1.re * φ 4 - a1.im * φ 5) : ℝ) : ℂ) := by
    have hs : singlet φ = ((φ 4 / √2 : ℝ) : ℂ) + ((φ 5 / √2 : ℝ) : ℂ) * Complex.I := by
      rw [singlet]; push_cast; ring
    have h2 : (√2 : ℝ) * √2 = 2 := Real.mul_self_sqrt (by norm_num)
    have hn : (√2 : ℝ) ≠ 0 := by positivity
    have e4 : φ 4 = √2 * (φ 4 / √2) := by field_simp
    have e5 : φ 5 = √2 * (φ 5 / √2) := by field_simp
    rw [hs]
    generalize φ 4 / √2 = x at *
    generalize φ 5 / √2 = y at *
    rw [e4, e5]
    apply Complex.ext
    · simp [plusCC, pow_two, div_eq_mul_inv]
      linear_combination (-(b1.re * (x * x - y * y) / 4) + b1.im * x * y / 2 -
        (a1.re * x - a1.im * y)) * h2
    · simp [plusCC, pow_two, div_eq_mul_inv]
      try ring
  rw [potential, key, higgs_square, singlet_square]
  push_cast
  ring

/-- For all parameters and all values of the fields the tree-level potential is the documented
one. -/
theorem C74_cxsm_potential (p : Par) (φ : FVec 6 ℝ) (s : FVec 6 ℝ → ℝ) (force : Bool) :
    ((vTree false s (tree p) φ 0 force : ℝ) : ℂ) =
      potential p.msq p.lam p.delta2 p.b2 p.d2 ⟨p.Reb1, p.Imb1⟩ ⟨p.Rea1, p.Ima1⟩ (higgs φ)
        (singlet φ) := by
  rw [C30_value false s _ _ (by simp), tree_eq,
    polynomial_look _ _ _ _ (l1_distinct p) (l2_distinct p) distinct_nil (l4_distinct p)
      (l1_rank p) (l2_rank p) (rank_nil _) (l4_rank p), potential_real]
  congr 1
  simp [terms, l1, l2, l4, ext]
  ring

/-- The counterterm potential has the same form with the counterterms of the parameters, and a
tadpole for every field. -/
theorem C74_cxsm_counterterms (c : CT) (φ : FVec 6 ℝ) (s : FVec 6 ℝ → ℝ) (force : Bool) :
    ((counterTerm false s (counter c) φ 0 force : ℝ) : ℂ) =
      potential c.dmsq c.dlambda c.ddelta2 c.db2 c.dd2 ⟨c.dReb1, c.dImb1⟩ ⟨c.dRea1, c.dIma1⟩
          (higgs φ) (singlet φ) +
        ((c.dT1 * φ 0 + c.dT2 * φ 1 + c.dT3 * φ 2 + c.dT4 * φ 3 + c.dT5 * φ 4 +
          c.dT6 * φ 5 : ℝ) : ℂ) := by
  rw [C30_counterterm_value false s _ _ (by simp), counter_eq,
    polynomial_look _ _ _ _ (ctL1_distinct c) (l2_distinct _) distinct_nil (l4_distinct _)
      (ctL1_rank c) (l2_rank _) (rank_nil _) (l4_rank _), potential_real, ← Complex.ofReal_add]
  congr 1
  simp [terms, ctL1, l2, l4, ext, shift]
  ring

/-! ### The vacuum -/

/-- The shape of the second derivatives at the vacuum. -/
def shape (g hh hs ha ss sa aa : ℝ) : Fin 6 → Fin 6 → ℝ :=
  ![![g, 0, 0, 0, 0, 0], ![0, g, 0, 0, 0, 0], ![0, 0, g, 0, 0, 0], ![0, 0, 0, hh, hs, ha],
    ![0, 0, 0, hs, ss, sa], ![0, 0, 0, ha, sa, aa]]

theorem shape_add (g hh hs ha ss sa aa g' hh' hs' ha' ss' sa' aa' : ℝ) (i j : Fin 6) :
    shape g hh hs ha ss sa aa i j + shape g' hh' hs' ha' ss' sa' aa' i j =
      shape (g + g') (hh + hh') (hs + hs') (ha + ha') (ss + ss') (sa + sa') (aa + aa') i j := by
  fin_cases i <;> fin_cases j <;> simp [shape]

theorem shape_mul (g hh hs ha ss sa aa x : ℝ) (i j : Fin 6) :
    shape g hh hs ha ss sa aa i j * x =
      shape (g * x) (hh * x) (hs * x) (ha * x) (ss * x) (sa * x) (aa * x) i j := by
  fin_cases i <;> fin_cases j <;> simp [shape]

theorem mul_shape (g hh hs ha ss sa aa x : ℝ) (i j : Fin 6) :
    x * shape g hh hs ha ss sa aa i j =
      shape (x * g) (x * hh) (x * hs) (x * ha) (x * ss) (x * sa) (x * aa) i j := by
  fin_cases i <;> fin_cases j <;> simp [shape]

theorem shape_neg (g hh hs ha ss sa aa : ℝ) (i j : Fin 6) :
    shape (-g) (-hh) (-hs) (-ha) (-ss) (-sa) (-aa) i j = -shape g hh hs ha ss sa aa i j := by
  fin_cases i <;> fin_cases j <;> simp [shape]

theorem l2_shape (p : Par) (i j : Fin 6) : look (l2 p) [(i : Nat), (j : Nat)] =
    shape (p.msq / 2) (p.msq / 2) 0 0 (p.Reb1 / 2 + p.b2 / 2) (-p.Imb1 / 2)
      (-p.Reb1 / 2 + p.b2 / 2) i j := by
  fin_cases i <;> fin_cases j <;> rfl

theorem l4_shape33 (p : Par) (i j : Fin 6) : look (l4 p) [(i : Nat), (j : Nat), 3, 3] =
    shape (p.lam / 2) (3 / 2 * p.lam) 0 0 (p.delta2 / 2) 0 (p.delta2 / 2) i j := by
  fin_cases i <;> fin_cases j <;> rfl

theorem l4_shape34 (p : Par) (i j : Fin 6) : look (l4 p) [(i : Nat), (j : Nat), 3, 4] =
    shape 0 0 (p.delta2 / 2) 0 0 0 0 i j := by
  fin_cases i <;> fin_cases j <;> rfl

theorem l4_shape35 (p : Par) (i j : Fin 6) : look (l4 p) [(i : Nat), (j : Nat), 3, 5] =
    shape 0 0 0 (p.delta2 / 2) 0 0 0 i j := by
  fin_cases i <;> fin_cases j <;> rfl

theorem l4_shape43 (p : Par) (i j : Fin 6) : look (l4 p) [(i : Nat), (j : Nat), 4, 3] =
    shape 0 0 (p.delta2 / 2) 0 0 0 0 i j := by
  fin_cases i <;> fin_cases j <;> rfl

theorem l4_shape44 (p : Par) (i j : Fin 6) : look (l4 p) [(i : Nat), (j : Nat), 4, 4] =
    shape (p.delta2 / 2) (p.delta2 / 2) 0 0 (3 / 2 * p.d2) 0 (p.d2 / 2) i j := by
  fin_cases i <;> fin_cases j <;> rfl

theorem l4_shape45 (p : Par) (i j : Fin 6) : look (l4 p) [(i : Nat), (j : Nat), 4, 5] =
    shape 0 0 0 0 0 (p.d2 / 2) 0 i j := by
  fin_cases i <;> fin_cases j <;> rfl

theorem l4_shape53 (p : Par) (i j : Fin 6) : look (l4 p) [(i : Nat), (j : Nat), 5, 3] =
    shape 0 0 0 (p.delta2 / 2) 0 0 0 i j := by
  fin_cases i <;> fin_cases j <;> rfl

theorem l4_shape54 (p : Par) (i j : Fin 6) : look (l4 p) [(i : Nat), (j : Nat), 5, 4] =
    shape 0 0 0 0 0 (p.d2 / 2) 0 i j := by
  fin_cases i <;> fin_cases j <;> rfl

theorem l4_shape55 (p : Par) (i j : Fin 6) : look (l4 p) [(i : Nat), (j : Nat), 5, 5] =
    shape (p.delta2 / 2) (p.delta2 / 2) 0 0 (p.d2 / 2) 0 (3 / 2 * p.d2) i j := by
  fin_cases i <;> fin_cases j <;> rfl

theorem hess_at (L1 : List Nat → ℝ) (p : Par) (h s a : ℝ) (i j : Fin 6) :
    hessianCT (curv 6 L1 (look (l2 p)) (look []) (look (l4 p))) (vevTree h s a) i j =
      shape (p.msq / 2 + p.lam / 4 * h ^ 2 + p.delta2 / 4 * (s ^ 2 + a ^ 2))
        (p.msq / 2 + 3 * p.lam / 4 * h ^ 2 + p.delta2 / 4 * (s ^ 2 + a ^ 2))
        (p.delta2 / 2 * h * s) (p.delta2 / 2 * h * a)
        (p.delta2 / 4 * h ^ 2 + p.b2 / 2 + p.d2 / 4 * (3 * s ^ 2 + a ^ 2) + p.Reb1 / 2)
        (p.d2 / 2 * s * a - p.Imb1 / 2)
        (p.delta2 / 4 * h ^ 2 + p.b2 / 2 + p.d2 / 4 * (s ^ 2 + 3 * a ^ 2) - p.Reb1 / 2) i j := by
  rw [hess_reduce _ _ (fun f => f 3 + f 4 + f 5) (vev_sum h s a)]
  change look (l2 p) [(i : Nat), (j : Nat)] + ((0 * h +
        (1 / 2 * look (l4 p) [(i : Nat), (j : Nat), 3, 3] * h * h +
        1 / 2 * look (l4 p) [(i : Nat), (j : Nat), 3, 4] * h * s +
        1 / 2 * look (l4 p) [(i : Nat), (j : Nat), 3, 5] * h * a)) +
      (0 * s + (1 / 2 * look (l4 p) [(i : Nat), (j : Nat), 4, 3] * s * h +
        1 / 2 * look (l4 p) [(i : Nat), (j : Nat), 4, 4] * s * s +
        1 / 2 * look (l4 p) [(i : Nat), (j : Nat), 4, 5] * s * a)) +
      (0 * a + (1 / 2 * look (l4 p) [(i : Nat), (j : Nat), 5, 3] * a * h +
        1 / 2 * look (l4 p) [(i : Nat), (j : Nat), 5, 4] * a * s +
        1 / 2 * look (l4 p) [(i : Nat), (j : Nat), 5, 5] * a * a))) = _
  rw [l2_shape, l4_shape33, l4_shape34, l4_shape35, l4_shape43, l4_shape44, l4_shape45,
        l4_shape53, l4_shape54, l4_shape55]
  simp only [zero_mul, zero_add, shape_mul, mul_shape, shape_add]
  congr 1 <;> ring

theorem grad_at (L1 : List Nat → ℝ) (p : Par) (h s a : ℝ) (i : Fin 6) :
    grad (curv 6 L1 (look (l2 p)) (look []) (look (l4 p))) (vevTree h s a) i = L1 [(i : Nat)] +
      ![0, 0, 0, h * (p.msq / 2 + p.lam / 4 * h ^ 2 + p.delta2 / 4 * (s ^ 2 + a ^ 2)),
        s * (p.delta2 / 4 * h ^ 2 + p.b2 / 2 + p.d2 / 4 * (s ^ 2 + a ^ 2) + p.Reb1 / 2) -
          p.Imb1 / 2 * a,
        a * (p.delta2 / 4 * h ^ 2 + p.b2 / 2 + p.d2 / 4 * (s ^ 2 + a ^ 2) - p.Reb1 / 2) -
          p.Imb1 / 2 * s] i := by
  rw [grad_reduce _ _ (fun f => f 3 + f 4 + f 5) (vev_sum h s a)]
  change L1 [(i : Nat)] + ((look (l2 p) [(i : Nat), ((3 : Fin 6) : Nat)] * h +
        ((1 / 2 * 0 * h * h + (1 / 6 * look (l4 p) [(i : Nat), ((3 : Fin 6) : Nat), 3,
        3] * h * h * h + 1 / 6 * look (l4 p) [(i : Nat), ((3 : Fin 6) : Nat), 3, 4] * h * h * s +
        1 / 6 * look (l4 p) [(i : Nat), ((3 : Fin 6) : Nat), 3, 5] * h * h * a)) +
        (1 / 2 * 0 * h * s + (1 / 6 * look (l4 p) [(i : Nat), ((3 : Fin 6) : Nat), 4,
        3] * h * s * h + 1 / 6 * look (l4 p) [(i : Nat), ((3 : Fin 6) : Nat), 4, 4] * h * s * s +
        1 / 6 * look (l4 p) [(i : Nat), ((3 : Fin 6) : Nat), 4, 5] * h * s * a)) +
        (1 / 2 * 0 * h * a + (1 / 6 * look (l4 p) [(i : Nat), ((3 : Fin 6) : Nat), 5,
        3] * h * a * h + 1 / 6 * look (l4 p) [(i : Nat), ((3 : Fin 6) : Nat), 5, 4] * h * a * s +
        1 / 6 * look (l4 p) [(i : Nat), ((3 : Fin 6) : Nat), 5, 5] * h * a * a)))) +
      (look (l2 p) [(i : Nat), ((4 : Fin 6) : Nat)] * s + ((1 / 2 * 0 * s * h +
        (1 / 6 * look (l4 p) [(i : Nat), ((4 : Fin 6) : Nat), 3, 3] * s * h * h +
        1 / 6 * look (l4 p) [(i : Nat), ((4 : Fin 6) : Nat), 3, 4] * s * h * s +
        1 / 6 * look (l4 p) [(i : Nat), ((4 : Fin 6) : Nat), 3, 5] * s * h * a)) +
        (1 / 2 * 0 * s * s + (1 / 6 * look (l4 p) [(i : Nat), ((4 : Fin 6) : Nat), 4,
        3] * s * s * h + 1 / 6 * look (l4 p) [(i : Nat), ((4 : Fin 6) : Nat), 4, 4] * s * s * s +
        1 / 6 * look (l4 p) [(i : Nat), ((4 : Fin 6) : Nat), 4, 5] * s * s * a)) +
        (1 / 2 * 0 * s * a + (1 / 6 * look (l4 p) [(i : Nat), ((4 : Fin 6) : Nat), 5,
        3] * s * a * h + 1 / 6 * look (l4 p) [(i : Nat), ((4 : Fin 6) : Nat), 5, 4] * s * a * s +
        1 / 6 * look (l4 p) [(i : Nat), ((4 : Fin 6) : Nat), 5, 5] * s * a * a)))) +
      (look (l2 p) [(i : Nat), ((5 : Fin 6) : Nat)] * a + ((1 / 2 * 0 * a * h +
        (1 / 6 * look (l4 p) [(i : Nat), ((5 : Fin 6) : Nat), 3, 3] * a * h * h +
        1 / 6 * look (l4 p) [(i : Nat), ((5 : Fin 6) : Nat), 3, 4] * a * h * s +
        1 / 6 * look (l4 p) [(i : Nat), ((5 : Fin 6) : Nat), 3, 5] * a * h * a)) +
        (1 / 2 * 0 * a * s + (1 / 6 * look (l4 p) [(i : Nat), ((5 : Fin 6) : Nat), 4,
        3] * a * s * h + 1 / 6 * look (l4 p) [(i : Nat), ((5 : Fin 6) : Nat), 4, 4] * a * s * s +
        1 / 6 * look (l4 p) [(i : Nat), ((5 : Fin 6) : Nat), 4, 5] * a * s * a)) +
        (1 / 2 * 0 * a * a + (1 / 6 * look (l4 p) [(i : Nat), ((5 : Fin 6) : Nat), 5,
        3] * a * a * h + 1 / 6 * look (l4 p) [(i : Nat), ((5 : Fin 6) : Nat), 5, 4] * a * a * s +
        1 / 6 * look (l4 p) [(i : Nat), ((5 : Fin 6) : Nat), 5, 5] * a * a * a))))) = _
  simp only [l2_shape, l4_shape33, l4_shape34, l4_shape35, l4_shape43, l4_shape44, l4_shape45,
        l4_shape53, l4_shape54, l4_shape55]
  fin_cases i <;> simp [shape] <;> ring

/-- With the parameters of `set_gen` the vacuum of the input is a stationary point of the tree-level
potential, for every input: every derivative mode vanishes. -/
theorem C75_cxsm_stationary (x : Input) (s : FVec 6 ℝ → ℝ) (force : Bool) (i : Fin 6) :
    vTree false s (tree (setGen x)) (vevTree x.vh x.vs x.va) ((i : Int) + 1) force = 0 := by
  have h0 : ¬ ((i : Int) + 1 = 0) := by omega
  have h1 : (((i : Int) + 1) == 0) = false := by simpa using h0
  simp only [vTree, h0, h1, fieldIndex_succ, Bool.false_and, Bool.and_false, if_false, reduceIte]
  have h2 : (√2 : ℝ) * √2 = 2 := Real.mul_self_sqrt (by norm_num)
  rw [tree_eq, grad_at]
  unfold setGen
  obtain ⟨vh, vs, va, msq, lam, delta2, b2, d2, Reb1, Imb1, Rea1, Ima1⟩ := x
  dsimp only
  by_cases ha : va = 0 <;> by_cases hs : vs = 0 <;> simp only [ha, hs, ne_eq, not_true_eq_false,
    not_false_eq_true, and_self, and_true, and_false, if_true, if_false]
  · fin_cases i <;> simp [look, l1, List.lookup]
    right; ring
  · fin_cases i <;> simp [look, l1, List.lookup]
    · right; ring
    · field_simp
      ring
    · field_simp
      linear_combination 2 * Imb1 * vs * h2
  · fin_cases i <;> simp [look, l1, List.lookup]
    · right; ring
    · field_simp
      linear_combination 2 * Imb1 * va * h2
    · field_simp
      ring
  · fin_cases i <;> simp [look, l1, List.lookup]
    · right; ring
    · field_simp
      linear_combination 4 * (vs ^ 2 * Imb1 + va ^ 2 * Imb1 - vs * va * delta2 * vh ^ 2 -
        2 * vs * va * b2 - vs * va ^ 3 * d2 - vs ^ 3 * va * d2) * h2
    · field_simp
      ring

/-- A vacuum with all three values. -/
example : vTree false (fun _ => 0) (tree (setGen ⟨246, 10, 20, 0, 1, 1, 1, 1, 0, 1, 0, 1⟩))
    (vevTree 246 10 20) 5 false = 0 :=
  C75_cxsm_stationary ⟨246, 10, 20, 0, 1, 1, 1, 1, 0, 1, 0, 1⟩ _ _ 4

/-- The scalar mass matrix there: three massless Goldstone bosons, which do not mix with the other
fields, and the second derivatives in the directions of `vh`, `vs` and `va`. -/
theorem C75_cxsm_masses (x : Input) (d : Fin 6 → Fin 6 → ℝ) :
    ∃ M, higgsMassMatrix (tree (setGen x)) d (vevTree x.vh x.vs x.va) 0 0 = Outcome.ok M ∧
      (∀ i j, i ≤ 2 ∨ j ≤ 2 → M i j = 0) ∧ (∀ i j, M i j = M j i) ∧
      M 3 3 = x.par.lam / 2 * x.vh ^ 2 ∧
      M 3 4 = x.par.delta2 / 2 * x.vh * x.vs ∧ M 3 5 = x.par.delta2 / 2 * x.vh * x.va ∧
      M 4 5 = x.par.d2 / 2 * x.vs * x.va - x.par.Imb1 / 2 ∧
      M 4 4 = x.par.delta2 / 4 * x.vh ^ 2 + x.par.b2 / 2 +
        x.par.d2 / 4 * (3 * x.vs ^ 2 + x.va ^ 2) + (setGen x).Reb1 / 2 ∧
      M 5 5 = x.par.delta2 / 4 * x.vh ^ 2 + x.par.b2 / 2 +
        x.par.d2 / 4 * (x.vs ^ 2 + 3 * x.va ^ 2) - (setGen x).Reb1 / 2 := by
  refine ⟨mass0 (tree (setGen x)) d (vevTree x.vh x.vs x.va) 0, by simp [higgsMassMatrix], ?_⟩
  have h : ∀ i j, massUpper (tree (setGen x)) d (vevTree x.vh x.vs x.va) 0 i j =
      hessianCT (tree (setGen x)) (vevTree x.vh x.vs x.va) i j := by
    intro i j; simp [massUpper, hessianCT]
  have e0 : (setGen x).lam = x.par.lam ∧ (setGen x).delta2 = x.par.delta2 ∧
      (setGen x).b2 = x.par.b2 ∧ (setGen x).d2 = x.par.d2 ∧ (setGen x).Imb1 = x.par.Imb1 := by
    unfold setGen
    dsimp only
    split_ifs <;> exact ⟨rfl, rfl, rfl, rfl, rfl⟩
  have e1 : (setGen x).msq = -x.par.lam / 2 * x.vh ^ 2 - x.par.delta2 / 2 * (x.vs ^ 2 + x.va ^ 2) := by
    unfold setGen
    by_cases ha : x.va = 0 <;> by_cases hs : x.vs = 0 <;> simp [ha, hs] <;> ring
  obtain ⟨q1, q2, q3, q4, q5⟩ := e0
  have hM : ∀ i j, mass0 (tree (setGen x)) d (vevTree x.vh x.vs x.va) 0 i j =
      shape 0 (x.par.lam / 2 * x.vh ^ 2) (x.par.delta2 / 2 * x.vh * x.vs)
        (x.par.delta2 / 2 * x.vh * x.va)
        (x.par.delta2 / 4 * x.vh ^ 2 + x.par.b2 / 2 + x.par.d2 / 4 * (3 * x.vs ^ 2 + x.va ^ 2) +
          (setGen x).Reb1 / 2)
        (x.par.d2 / 2 * x.vs * x.va - x.par.Imb1 / 2)
        (x.par.delta2 / 4 * x.vh ^ 2 + x.par.b2 / 2 + x.par.d2 / 4 * (x.vs ^ 2 + 3 * x.va ^ 2) -
          (setGen x).Reb1 / 2) i j := by
    intro i j
    rw [mass0, h, h, tree_eq, hess_at, hess_at, q1, q2, q3, q4, q5, e1]
    fin_cases i <;> fin_cases j <;> simp [shape] <;> ring
  refine ⟨fun i j hij => ?_, fun i j => ?_, hM 3 3, hM 3 4, hM 3 5, hM 4 5, hM 4 4, hM 5 5⟩
  · rw [hM]
    fin_cases i <;> fin_cases j <;> first | rfl | exact absurd hij (by decide)
  · rw [hM, hM]
    fin_cases i <;> fin_cases j <;> rfl

end Verif.Lagrangian.CxSM
