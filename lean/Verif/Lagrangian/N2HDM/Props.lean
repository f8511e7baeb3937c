import Verif.Lagrangian.N2HDM.Tables
import Verif.Lagrangian.Singlet
import Mathlib.Analysis.SpecialFunctions.Trigonometric.Arctan

/-!
# The next-to-minimal two Higgs doublet model implements its Lagrangian
-/

set_option linter.unusedSectionVars false
set_option linter.unusedSimpArgs false

namespace Verif.Lagrangian.N2HDM

open Verif.Potential
open Verif.Lagrangian.Spec

/-- `Φ₁`, ClassPotentialN2HDM.h:42-44. -/
noncomputable def phi1 (φ : Fin 9 → ℝ) : Fin 2 → ℂ := doublet (φ 0) (φ 2) (φ 6) (φ 4)

/-- `Φ₂`, ClassPotentialN2HDM.h:45-47. -/
noncomputable def phi2 (φ : Fin 9 → ℝ) : Fin 2 → ℂ := doublet (φ 1) (φ 3) (φ 7) (φ 5)

/-- The documented potential, ClassPotentialN2HDM.h:25-31; the terms in brackets are understood with
their complex conjugates. -/
noncomputable def documented (u1 u2 m12 l1 l2 l3 l4 l5 us l6 l7 l8 : ℝ) (φ : Fin 9 → ℝ) : ℂ :=
  twoDoublet u1 u2 m12 l1 l2 l3 l4 l5 0 (phi1 φ) (phi2 φ) + us / 2 * (φ 8 : ℂ) ^ 2 +
    l6 / 8 * (φ 8 : ℂ) ^ 4 + l7 / 2 * dagger (phi1 φ) (phi1 φ) * (φ 8 : ℂ) ^ 2 +
    l8 / 2 * dagger (phi2 φ) (phi2 φ) * (φ 8 : ℂ) ^ 2

theorem documented_real (u1 u2 m12 l1 l2 l3 l4 l5 us l6 l7 l8 : ℝ) (φ : Fin 9 → ℝ) :
    ∃ x : ℝ, twoDoublet u1 u2 m12 l1 l2 l3 l4 l5 0 (phi1 φ) (phi2 φ) = (x : ℂ) ∧
      documented u1 u2 m12 l1 l2 l3 l4 l5 us l6 l7 l8 φ =
        ((x + us / 2 * φ 8 ^ 2 + l6 / 8 * φ 8 ^ 4 +
          l7 / 2 * ((φ 0 ^ 2 + φ 2 ^ 2 + φ 6 ^ 2 + φ 4 ^ 2) / 2) * φ 8 ^ 2 +
          l8 / 2 * ((φ 1 ^ 2 + φ 3 ^ 2 + φ 7 ^ 2 + φ 5 ^ 2) / 2) * φ 8 ^ 2 : ℝ) : ℂ) := by
  have e1 : dagger (phi1 φ) (phi1 φ) =
      (((φ 0 ^ 2 + φ 2 ^ 2 + φ 6 ^ 2 + φ 4 ^ 2) / 2 : ℝ) : ℂ) := by
    rw [phi1, dagger_doublet]; push_cast; ring
  have e2 : dagger (phi2 φ) (phi2 φ) =
      (((φ 1 ^ 2 + φ 3 ^ 2 + φ 7 ^ 2 + φ 5 ^ 2) / 2 : ℝ) : ℂ) := by
    rw [phi2, dagger_doublet]; push_cast; ring
  refine ⟨_, by rw [phi1, phi2, twoDoublet_real], ?_⟩
  rw [documented, e1, e2, phi1, phi2, twoDoublet_real]
  push_cast
  ring

/-- For all parameters and all values of the fields the tree-level potential is the documented
one. -/
theorem C74_n2hdm_potential (p : Par ℝ) (φ : FVec 9 ℝ) (s : FVec 9 ℝ → ℝ) (force : Bool) :
    ((vTree false s (tree p) φ 0 force : ℝ) : ℂ) =
      documented p.u1 p.u2 p.RealMMix p.L1 p.L2 p.L3 p.L4 p.RL5 p.Nus p.NL6 p.NL7 p.NL8 φ := by
  obtain ⟨x, hx, hd⟩ := documented_real p.u1 p.u2 p.RealMMix p.L1 p.L2 p.L3 p.L4 p.RL5 p.Nus p.NL6
    p.NL7 p.NL8 φ
  rw [hd, C30_value false s _ _ (by simp), tree_eq,
    polynomial_sym _ _ _ _ distinct_nil (l2s_distinct p) distinct_nil (l4s_distinct p)
      (l4s_ascending p) (rank_nil _) (l2s_rank p) (rank_nil _) (l4s_rank p)]
  congr 1
  rw [phi1, phi2, twoDoublet_real] at hx
  rw [← Complex.ofReal_injective hx]
  simp [terms, l2s, l4s, mult_quad, ext]
  ring

/-- The counterterm potential has the same form with the counterterms of the parameters, and
tadpoles. -/
theorem C74_n2hdm_counterterms (c : CT ℝ) (φ : FVec 9 ℝ) (s : FVec 9 ℝ → ℝ) (force : Bool) :
    ((counterTerm false s (counter c) φ 0 force : ℝ) : ℂ) =
      documented c.Du1CT c.Du2CT c.DRu3CT c.DL1CT c.DL2CT c.DL3CT c.DL4CT c.DRL5CT c.NDus c.NDL6
          c.NDL7 c.NDL8 φ +
        ((c.DT1 * φ 6 + c.DT2 * φ 7 + c.NDTS * φ 8 : ℝ) : ℂ) := by
  obtain ⟨x, hx, hd⟩ := documented_real c.Du1CT c.Du2CT c.DRu3CT c.DL1CT c.DL2CT c.DL3CT c.DL4CT
    c.DRL5CT c.NDus c.NDL6 c.NDL7 c.NDL8 φ
  rw [hd, C30_counterterm_value false s _ _ (by simp), counter_eq,
    polynomial_sym2 _ _ _ _ (ctL1_distinct c) (ctL2_distinct c) distinct_nil (ctL4_distinct c)
      (ctL2_ascending c) (ctL4_ascending c) (ctL1_rank c) (ctL2_rank c) (rank_nil _) (ctL4_rank c),
    ← Complex.ofReal_add]
  congr 1
  rw [phi1, phi2, twoDoublet_real] at hx
  rw [← Complex.ofReal_injective hx]
  simp [terms, ctL1, ctL2, ctL4, mult_quad, mult_pair, ext]
  ring

/-! ### The vacuum -/

/-- A symmetric matrix with the symmetries of the model: the charged fields `0`, `1` and `2`, `3`,
the CP-odd fields `4`, `5` and the CP-even fields `6`, `7`, `8` do not mix. -/
def blocks (a b c d e f g h k l m n : ℝ) : Fin 9 → Fin 9 → ℝ :=
  !![a, b, 0, 0, 0, 0, 0, 0, 0; b, c, 0, 0, 0, 0, 0, 0, 0; 0, 0, a, b, 0, 0, 0, 0, 0;
     0, 0, b, c, 0, 0, 0, 0, 0; 0, 0, 0, 0, d, e, 0, 0, 0; 0, 0, 0, 0, e, f, 0, 0, 0;
     0, 0, 0, 0, 0, 0, g, h, k; 0, 0, 0, 0, 0, 0, h, l, m; 0, 0, 0, 0, 0, 0, k, m, n]

theorem blocks_neg (a b c d e f g h k l m n : ℝ) (i j : Fin 9) :
    blocks (-a) (-b) (-c) (-d) (-e) (-f) (-g) (-h) (-k) (-l) (-m) (-n) i j =
      -blocks a b c d e f g h k l m n i j := by
  fin_cases i <;> fin_cases j <;> simp [blocks]

theorem blocks_add (a b c d e f g h k l m n a' b' c' d' e' f' g' h' k' l' m' n' : ℝ) (i j : Fin 9) :
    blocks a b c d e f g h k l m n i j + blocks a' b' c' d' e' f' g' h' k' l' m' n' i j =
      blocks (a + a') (b + b') (c + c') (d + d') (e + e') (f + f') (g + g') (h + h') (k + k')
        (l + l') (m + m') (n + n') i j := by
  fin_cases i <;> fin_cases j <;> simp [blocks]

theorem blocks_mul (x a b c d e f g h k l m n : ℝ) (i j : Fin 9) :
    x * blocks a b c d e f g h k l m n i j =
      blocks (x * a) (x * b) (x * c) (x * d) (x * e) (x * f) (x * g) (x * h) (x * k) (x * l)
        (x * m) (x * n) i j := by
  fin_cases i <;> fin_cases j <;> simp [blocks]

theorem mul_blocks (x a b c d e f g h k l m n : ℝ) (i j : Fin 9) :
    blocks a b c d e f g h k l m n i j * x =
      blocks (x * a) (x * b) (x * c) (x * d) (x * e) (x * f) (x * g) (x * h) (x * k) (x * l)
        (x * m) (x * n) i j := by
  rw [mul_comm, blocks_mul]

theorem l2_blocks (p : Par ℝ) (i j : Fin 9) : look (l2s p) [i, j] =
    blocks p.u1 (-p.RealMMix) p.u2 p.u1 (-p.RealMMix) p.u2 p.u1 (-p.RealMMix) 0 p.u2 0 p.Nus i j := by
  rw [l2_table]
  fin_cases i <;> fin_cases j <;> rfl

theorem l4_blocks66 (p : Par ℝ) (i j : Fin 9) : lookSym (l4s p) [i, j, 6, 6] =
    blocks p.L1 0 p.L3 p.L1 0 (p.L3 + p.L4 - p.RL5) (3 * p.L1) 0 0 (p.L3 + p.L4 + p.RL5) 0 p.NL7 i j := by
  rw [l4_table66]
  fin_cases i <;> fin_cases j <;> rfl

theorem l4_blocks67 (p : Par ℝ) (i j : Fin 9) : lookSym (l4s p) [i, j, 6, 7] =
    blocks 0 (p.L4 / 2 + p.RL5 / 2) 0 0 p.RL5 0 0 (p.L3 + p.L4 + p.RL5) 0 0 0 0 i j := by
  rw [l4_table67]
  fin_cases i <;> fin_cases j <;> rfl

theorem l4_blocks68 (p : Par ℝ) (i j : Fin 9) : lookSym (l4s p) [i, j, 6, 8] =
    blocks 0 0 0 0 0 0 0 0 p.NL7 0 0 0 i j := by
  rw [l4_table68]
  fin_cases i <;> fin_cases j <;> rfl

theorem l4_blocks77 (p : Par ℝ) (i j : Fin 9) : lookSym (l4s p) [i, j, 7, 7] =
    blocks p.L3 0 p.L2 (p.L3 + p.L4 - p.RL5) 0 p.L2 (p.L3 + p.L4 + p.RL5) 0 0 (3 * p.L2) 0 p.NL8 i j := by
  rw [l4_table77]
  fin_cases i <;> fin_cases j <;> rfl

theorem l4_blocks78 (p : Par ℝ) (i j : Fin 9) : lookSym (l4s p) [i, j, 7, 8] =
    blocks 0 0 0 0 0 0 0 0 0 0 p.NL8 0 i j := by
  rw [l4_table78]
  fin_cases i <;> fin_cases j <;> rfl

theorem l4_blocks88 (p : Par ℝ) (i j : Fin 9) : lookSym (l4s p) [i, j, 8, 8] =
    blocks p.NL7 0 p.NL8 p.NL7 0 p.NL8 p.NL7 0 0 p.NL8 0 (3 * p.NL6) i j := by
  rw [l4_table88]
  fin_cases i <;> fin_cases j <;> rfl

theorem ctL2_blocks (c : CT ℝ) (i j : Fin 9) : lookSym (ctL2 c) [i, j] =
    blocks c.Du1CT (-c.DRu3CT) c.Du2CT c.Du1CT (-c.DRu3CT) c.Du2CT c.Du1CT (-c.DRu3CT) 0 c.Du2CT 0 c.NDus i j := by
  rw [ctL2_table]
  fin_cases i <;> fin_cases j <;> rfl

theorem ctL4_blocks66 (c : CT ℝ) (i j : Fin 9) : lookSym (ctL4 c) [i, j, 6, 6] =
    blocks c.DL1CT 0 c.DL3CT c.DL1CT 0 (c.DL3CT + c.DL4CT - c.DRL5CT) (3 * c.DL1CT) 0 0 (c.DL3CT + c.DL4CT + c.DRL5CT) 0 c.NDL7 i j := by
  rw [ctL4_table66]
  fin_cases i <;> fin_cases j <;> rfl

theorem ctL4_blocks67 (c : CT ℝ) (i j : Fin 9) : lookSym (ctL4 c) [i, j, 6, 7] =
    blocks 0 (c.DL4CT / 2 + c.DRL5CT / 2) 0 0 c.DRL5CT 0 0 (c.DL3CT + c.DL4CT + c.DRL5CT) 0 0 0 0 i j := by
  rw [ctL4_table67]
  fin_cases i <;> fin_cases j <;> rfl

theorem ctL4_blocks68 (c : CT ℝ) (i j : Fin 9) : lookSym (ctL4 c) [i, j, 6, 8] =
    blocks 0 0 0 0 0 0 0 0 c.NDL7 0 0 0 i j := by
  rw [ctL4_table68]
  fin_cases i <;> fin_cases j <;> rfl

theorem ctL4_blocks77 (c : CT ℝ) (i j : Fin 9) : lookSym (ctL4 c) [i, j, 7, 7] =
    blocks c.DL3CT 0 c.DL2CT (c.DL3CT + c.DL4CT - c.DRL5CT) 0 c.DL2CT (c.DL3CT + c.DL4CT + c.DRL5CT) 0 0 (3 * c.DL2CT) 0 c.NDL8 i j := by
  rw [ctL4_table77]
  fin_cases i <;> fin_cases j <;> rfl

theorem ctL4_blocks78 (c : CT ℝ) (i j : Fin 9) : lookSym (ctL4 c) [i, j, 7, 8] =
    blocks 0 0 0 0 0 0 0 0 0 0 c.NDL8 0 i j := by
  rw [ctL4_table78]
  fin_cases i <;> fin_cases j <;> rfl

theorem ctL4_blocks88 (c : CT ℝ) (i j : Fin 9) : lookSym (ctL4 c) [i, j, 8, 8] =
    blocks c.NDL7 0 c.NDL8 c.NDL7 0 c.NDL8 c.NDL7 0 0 c.NDL8 0 (3 * c.NDL6) i j := by
  rw [ctL4_table88]
  fin_cases i <;> fin_cases j <;> rfl

theorem tree_hess (p : Par ℝ) (v w s : ℝ) (i j : Fin 9) :
    hessianCT (tree p) (vevTree v w s) i j =
      blocks (p.u1 + (p.L1 * v ^ 2 + p.L3 * w ^ 2 + p.NL7 * s ^ 2) / 2)
        (-p.RealMMix + (p.L4 + p.RL5) / 2 * v * w)
        (p.u2 + (p.L3 * v ^ 2 + p.L2 * w ^ 2 + p.NL8 * s ^ 2) / 2)
        (p.u1 + p.L1 / 2 * v ^ 2 + (p.L3 + p.L4 - p.RL5) / 2 * w ^ 2 + p.NL7 / 2 * s ^ 2)
        (-p.RealMMix + p.RL5 * v * w)
        (p.u2 + p.L2 / 2 * w ^ 2 + (p.L3 + p.L4 - p.RL5) / 2 * v ^ 2 + p.NL8 / 2 * s ^ 2)
        (p.u1 + 3 / 2 * p.L1 * v ^ 2 + (p.L3 + p.L4 + p.RL5) / 2 * w ^ 2 + p.NL7 / 2 * s ^ 2)
        (-p.RealMMix + (p.L3 + p.L4 + p.RL5) * v * w)
        (p.NL7 * v * s)
        (p.u2 + 3 / 2 * p.L2 * w ^ 2 + (p.L3 + p.L4 + p.RL5) / 2 * v ^ 2 + p.NL8 / 2 * s ^ 2)
        (p.NL8 * w * s)
        (p.Nus + 3 / 2 * p.NL6 * s ^ 2 + p.NL7 / 2 * v ^ 2 + p.NL8 / 2 * w ^ 2) i j := by
  rw [tree_eq, hess_reduce _ _ (fun f => f 6 + f 7 + f 8) (vev_sum v w s)]
  change look (l2s p) [i, j] + ((0 * v + (1 / 2 * lookSym (l4s p) [i, j, 6, 6] * v * v +
        1 / 2 * lookSym (l4s p) [i, j, 6, 7] * v * w +
        1 / 2 * lookSym (l4s p) [i, j, 6, 8] * v * s)) +
      (0 * w + (1 / 2 * lookSym (l4s p) [i, j, 7, 6] * w * v +
        1 / 2 * lookSym (l4s p) [i, j, 7, 7] * w * w +
        1 / 2 * lookSym (l4s p) [i, j, 7, 8] * w * s)) +
      (0 * s + (1 / 2 * lookSym (l4s p) [i, j, 8, 6] * s * v +
        1 / 2 * lookSym (l4s p) [i, j, 8, 7] * s * w +
        1 / 2 * lookSym (l4s p) [i, j, 8, 8] * s * s))) = _
  have e76 : lookSym (l4s p) [i, j, 7, 6] = lookSym (l4s p) [i, j, 6, 7] := lookSym_last _ _ _ _ _
  have e86 : lookSym (l4s p) [i, j, 8, 6] = lookSym (l4s p) [i, j, 6, 8] := lookSym_last _ _ _ _ _
  have e87 : lookSym (l4s p) [i, j, 8, 7] = lookSym (l4s p) [i, j, 7, 8] := lookSym_last _ _ _ _ _
  rw [e76, e86, e87, l2_blocks, l4_blocks66, l4_blocks67, l4_blocks68, l4_blocks77,
    l4_blocks78, l4_blocks88]
  simp only [zero_mul, zero_add, blocks_mul, mul_blocks, blocks_add]
  congr 1 <;> ring

theorem tree_grad (p : Par ℝ) (v w s : ℝ) (i : Fin 9) :
    grad (tree p) (vevTree v w s) i =
      ![0, 0, 0, 0, 0, 0,
        p.u1 * v - p.RealMMix * w + p.L1 / 2 * v ^ 3 + (p.L3 + p.L4 + p.RL5) / 2 * v * w ^ 2 +
          p.NL7 / 2 * v * s ^ 2,
        p.u2 * w - p.RealMMix * v + p.L2 / 2 * w ^ 3 + (p.L3 + p.L4 + p.RL5) / 2 * v ^ 2 * w +
          p.NL8 / 2 * w * s ^ 2,
        p.Nus * s + p.NL6 / 2 * s ^ 3 + p.NL7 / 2 * v ^ 2 * s + p.NL8 / 2 * w ^ 2 * s] i := by
  rw [tree_eq, grad_reduce _ _ (fun f => f 6 + f 7 + f 8) (vev_sum v w s)]
  change 0 + ((look (l2s p) [i, ((6 : Fin 9) : Nat)] * v + ((1 / 2 * 0 * v * v + (1 / 6 * lookSym (l4s p) [i, ((6 : Fin 9) : Nat), 6, 6] * v * v * v +
          1 / 6 * lookSym (l4s p) [i, ((6 : Fin 9) : Nat), 6, 7] * v * v * w +
          1 / 6 * lookSym (l4s p) [i, ((6 : Fin 9) : Nat), 6, 8] * v * v * s)) +
        (1 / 2 * 0 * v * w + (1 / 6 * lookSym (l4s p) [i, ((6 : Fin 9) : Nat), 7, 6] * v * w * v +
          1 / 6 * lookSym (l4s p) [i, ((6 : Fin 9) : Nat), 7, 7] * v * w * w +
          1 / 6 * lookSym (l4s p) [i, ((6 : Fin 9) : Nat), 7, 8] * v * w * s)) +
        (1 / 2 * 0 * v * s + (1 / 6 * lookSym (l4s p) [i, ((6 : Fin 9) : Nat), 8, 6] * v * s * v +
          1 / 6 * lookSym (l4s p) [i, ((6 : Fin 9) : Nat), 8, 7] * v * s * w +
          1 / 6 * lookSym (l4s p) [i, ((6 : Fin 9) : Nat), 8, 8] * v * s * s)))) +
      (look (l2s p) [i, ((7 : Fin 9) : Nat)] * w + ((1 / 2 * 0 * w * v + (1 / 6 * lookSym (l4s p) [i, ((7 : Fin 9) : Nat), 6, 6] * w * v * v +
          1 / 6 * lookSym (l4s p) [i, ((7 : Fin 9) : Nat), 6, 7] * w * v * w +
          1 / 6 * lookSym (l4s p) [i, ((7 : Fin 9) : Nat), 6, 8] * w * v * s)) +
        (1 / 2 * 0 * w * w + (1 / 6 * lookSym (l4s p) [i, ((7 : Fin 9) : Nat), 7, 6] * w * w * v +
          1 / 6 * lookSym (l4s p) [i, ((7 : Fin 9) : Nat), 7, 7] * w * w * w +
          1 / 6 * lookSym (l4s p) [i, ((7 : Fin 9) : Nat), 7, 8] * w * w * s)) +
        (1 / 2 * 0 * w * s + (1 / 6 * lookSym (l4s p) [i, ((7 : Fin 9) : Nat), 8, 6] * w * s * v +
          1 / 6 * lookSym (l4s p) [i, ((7 : Fin 9) : Nat), 8, 7] * w * s * w +
          1 / 6 * lookSym (l4s p) [i, ((7 : Fin 9) : Nat), 8, 8] * w * s * s)))) +
      (look (l2s p) [i, ((8 : Fin 9) : Nat)] * s + ((1 / 2 * 0 * s * v + (1 / 6 * lookSym (l4s p) [i, ((8 : Fin 9) : Nat), 6, 6] * s * v * v +
          1 / 6 * lookSym (l4s p) [i, ((8 : Fin 9) : Nat), 6, 7] * s * v * w +
          1 / 6 * lookSym (l4s p) [i, ((8 : Fin 9) : Nat), 6, 8] * s * v * s)) +
        (1 / 2 * 0 * s * w + (1 / 6 * lookSym (l4s p) [i, ((8 : Fin 9) : Nat), 7, 6] * s * w * v +
          1 / 6 * lookSym (l4s p) [i, ((8 : Fin 9) : Nat), 7, 7] * s * w * w +
          1 / 6 * lookSym (l4s p) [i, ((8 : Fin 9) : Nat), 7, 8] * s * w * s)) +
        (1 / 2 * 0 * s * s + (1 / 6 * lookSym (l4s p) [i, ((8 : Fin 9) : Nat), 8, 6] * s * s * v +
          1 / 6 * lookSym (l4s p) [i, ((8 : Fin 9) : Nat), 8, 7] * s * s * w +
          1 / 6 * lookSym (l4s p) [i, ((8 : Fin 9) : Nat), 8, 8] * s * s * s))))) = _
  have e76 : ∀ j : Fin 9, lookSym (l4s p) [i, j, 7, 6] = lookSym (l4s p) [i, j, 6, 7] :=
    fun j => lookSym_last _ _ _ _ _
  have e86 : ∀ j : Fin 9, lookSym (l4s p) [i, j, 8, 6] = lookSym (l4s p) [i, j, 6, 8] :=
    fun j => lookSym_last _ _ _ _ _
  have e87 : ∀ j : Fin 9, lookSym (l4s p) [i, j, 8, 7] = lookSym (l4s p) [i, j, 7, 8] :=
    fun j => lookSym_last _ _ _ _ _
  simp only [e76, e86, e87, l2_table, l4_table66, l4_table67, l4_table68, l4_table77,
    l4_table78, l4_table88]
  fin_cases i <;> simp <;> ring

theorem counter_hess (c : CT ℝ) (v w s : ℝ) (i j : Fin 9) :
    hessianCT (counter c) (vevTree v w s) i j =
      blocks (c.Du1CT + (c.DL1CT * v ^ 2 + c.DL3CT * w ^ 2 + c.NDL7 * s ^ 2) / 2)
        (-c.DRu3CT + (c.DL4CT + c.DRL5CT) / 2 * v * w)
        (c.Du2CT + (c.DL3CT * v ^ 2 + c.DL2CT * w ^ 2 + c.NDL8 * s ^ 2) / 2)
        (c.Du1CT + c.DL1CT / 2 * v ^ 2 + (c.DL3CT + c.DL4CT - c.DRL5CT) / 2 * w ^ 2 + c.NDL7 / 2 * s ^ 2)
        (-c.DRu3CT + c.DRL5CT * v * w)
        (c.Du2CT + c.DL2CT / 2 * w ^ 2 + (c.DL3CT + c.DL4CT - c.DRL5CT) / 2 * v ^ 2 + c.NDL8 / 2 * s ^ 2)
        (c.Du1CT + 3 / 2 * c.DL1CT * v ^ 2 + (c.DL3CT + c.DL4CT + c.DRL5CT) / 2 * w ^ 2 + c.NDL7 / 2 * s ^ 2)
        (-c.DRu3CT + (c.DL3CT + c.DL4CT + c.DRL5CT) * v * w)
        (c.NDL7 * v * s)
        (c.Du2CT + 3 / 2 * c.DL2CT * w ^ 2 + (c.DL3CT + c.DL4CT + c.DRL5CT) / 2 * v ^ 2 + c.NDL8 / 2 * s ^ 2)
        (c.NDL8 * w * s)
        (c.NDus + 3 / 2 * c.NDL6 * s ^ 2 + c.NDL7 / 2 * v ^ 2 + c.NDL8 / 2 * w ^ 2) i j := by
  rw [counter_eq, hess_reduce _ _ (fun f => f 6 + f 7 + f 8) (vev_sum v w s)]
  change lookSym (ctL2 c) [i, j] + ((0 * v + (1 / 2 * lookSym (ctL4 c) [i, j, 6, 6] * v * v +
        1 / 2 * lookSym (ctL4 c) [i, j, 6, 7] * v * w +
        1 / 2 * lookSym (ctL4 c) [i, j, 6, 8] * v * s)) +
      (0 * w + (1 / 2 * lookSym (ctL4 c) [i, j, 7, 6] * w * v +
        1 / 2 * lookSym (ctL4 c) [i, j, 7, 7] * w * w +
        1 / 2 * lookSym (ctL4 c) [i, j, 7, 8] * w * s)) +
      (0 * s + (1 / 2 * lookSym (ctL4 c) [i, j, 8, 6] * s * v +
        1 / 2 * lookSym (ctL4 c) [i, j, 8, 7] * s * w +
        1 / 2 * lookSym (ctL4 c) [i, j, 8, 8] * s * s))) = _
  have e76 : lookSym (ctL4 c) [i, j, 7, 6] = lookSym (ctL4 c) [i, j, 6, 7] := lookSym_last _ _ _ _ _
  have e86 : lookSym (ctL4 c) [i, j, 8, 6] = lookSym (ctL4 c) [i, j, 6, 8] := lookSym_last _ _ _ _ _
  have e87 : lookSym (ctL4 c) [i, j, 8, 7] = lookSym (ctL4 c) [i, j, 7, 8] := lookSym_last _ _ _ _ _
  rw [e76, e86, e87, ctL2_blocks, ctL4_blocks66, ctL4_blocks67, ctL4_blocks68, ctL4_blocks77,
    ctL4_blocks78, ctL4_blocks88]
  simp only [zero_mul, zero_add, blocks_mul, mul_blocks, blocks_add]
  congr 1 <;> ring

theorem counter_grad (c : CT ℝ) (v w s : ℝ) (i : Fin 9) :
    grad (counter c) (vevTree v w s) i =
      ![0, 0, 0, 0, 0, 0,
        c.DT1 + c.Du1CT * v - c.DRu3CT * w + c.DL1CT / 2 * v ^ 3 + (c.DL3CT + c.DL4CT + c.DRL5CT) / 2 * v * w ^ 2 +
          c.NDL7 / 2 * v * s ^ 2,
        c.DT2 + c.Du2CT * w - c.DRu3CT * v + c.DL2CT / 2 * w ^ 3 + (c.DL3CT + c.DL4CT + c.DRL5CT) / 2 * v ^ 2 * w +
          c.NDL8 / 2 * w * s ^ 2,
        c.NDTS + c.NDus * s + c.NDL6 / 2 * s ^ 3 + c.NDL7 / 2 * v ^ 2 * s + c.NDL8 / 2 * w ^ 2 * s] i := by
  have h1 : ∀ i : Fin 9, look (ctL1 c) [i] = ![0, 0, 0, 0, 0, 0, c.DT1, c.DT2, c.NDTS] i := by
    intro i; fin_cases i <;> rfl
  rw [counter_eq, grad_reduce _ _ (fun f => f 6 + f 7 + f 8) (vev_sum v w s)]
  change look (ctL1 c) [i] + ((lookSym (ctL2 c) [i, ((6 : Fin 9) : Nat)] * v + ((1 / 2 * 0 * v * v + (1 / 6 * lookSym (ctL4 c) [i, ((6 : Fin 9) : Nat), 6, 6] * v * v * v +
          1 / 6 * lookSym (ctL4 c) [i, ((6 : Fin 9) : Nat), 6, 7] * v * v * w +
          1 / 6 * lookSym (ctL4 c) [i, ((6 : Fin 9) : Nat), 6, 8] * v * v * s)) +
        (1 / 2 * 0 * v * w + (1 / 6 * lookSym (ctL4 c) [i, ((6 : Fin 9) : Nat), 7, 6] * v * w * v +
          1 / 6 * lookSym (ctL4 c) [i, ((6 : Fin 9) : Nat), 7, 7] * v * w * w +
          1 / 6 * lookSym (ctL4 c) [i, ((6 : Fin 9) : Nat), 7, 8] * v * w * s)) +
        (1 / 2 * 0 * v * s + (1 / 6 * lookSym (ctL4 c) [i, ((6 : Fin 9) : Nat), 8, 6] * v * s * v +
          1 / 6 * lookSym (ctL4 c) [i, ((6 : Fin 9) : Nat), 8, 7] * v * s * w +
          1 / 6 * lookSym (ctL4 c) [i, ((6 : Fin 9) : Nat), 8, 8] * v * s * s)))) +
      (lookSym (ctL2 c) [i, ((7 : Fin 9) : Nat)] * w + ((1 / 2 * 0 * w * v + (1 / 6 * lookSym (ctL4 c) [i, ((7 : Fin 9) : Nat), 6, 6] * w * v * v +
          1 / 6 * lookSym (ctL4 c) [i, ((7 : Fin 9) : Nat), 6, 7] * w * v * w +
          1 / 6 * lookSym (ctL4 c) [i, ((7 : Fin 9) : Nat), 6, 8] * w * v * s)) +
        (1 / 2 * 0 * w * w + (1 / 6 * lookSym (ctL4 c) [i, ((7 : Fin 9) : Nat), 7, 6] * w * w * v +
          1 / 6 * lookSym (ctL4 c) [i, ((7 : Fin 9) : Nat), 7, 7] * w * w * w +
          1 / 6 * lookSym (ctL4 c) [i, ((7 : Fin 9) : Nat), 7, 8] * w * w * s)) +
        (1 / 2 * 0 * w * s + (1 / 6 * lookSym (ctL4 c) [i, ((7 : Fin 9) : Nat), 8, 6] * w * s * v +
          1 / 6 * lookSym (ctL4 c) [i, ((7 : Fin 9) : Nat), 8, 7] * w * s * w +
          1 / 6 * lookSym (ctL4 c) [i, ((7 : Fin 9) : Nat), 8, 8] * w * s * s)))) +
      (lookSym (ctL2 c) [i, ((8 : Fin 9) : Nat)] * s + ((1 / 2 * 0 * s * v + (1 / 6 * lookSym (ctL4 c) [i, ((8 : Fin 9) : Nat), 6, 6] * s * v * v +
          1 / 6 * lookSym (ctL4 c) [i, ((8 : Fin 9) : Nat), 6, 7] * s * v * w +
          1 / 6 * lookSym (ctL4 c) [i, ((8 : Fin 9) : Nat), 6, 8] * s * v * s)) +
        (1 / 2 * 0 * s * w + (1 / 6 * lookSym (ctL4 c) [i, ((8 : Fin 9) : Nat), 7, 6] * s * w * v +
          1 / 6 * lookSym (ctL4 c) [i, ((8 : Fin 9) : Nat), 7, 7] * s * w * w +
          1 / 6 * lookSym (ctL4 c) [i, ((8 : Fin 9) : Nat), 7, 8] * s * w * s)) +
        (1 / 2 * 0 * s * s + (1 / 6 * lookSym (ctL4 c) [i, ((8 : Fin 9) : Nat), 8, 6] * s * s * v +
          1 / 6 * lookSym (ctL4 c) [i, ((8 : Fin 9) : Nat), 8, 7] * s * s * w +
          1 / 6 * lookSym (ctL4 c) [i, ((8 : Fin 9) : Nat), 8, 8] * s * s * s))))) = _
  have e76 : ∀ j : Fin 9, lookSym (ctL4 c) [i, j, 7, 6] = lookSym (ctL4 c) [i, j, 6, 7] :=
    fun j => lookSym_last _ _ _ _ _
  have e86 : ∀ j : Fin 9, lookSym (ctL4 c) [i, j, 8, 6] = lookSym (ctL4 c) [i, j, 6, 8] :=
    fun j => lookSym_last _ _ _ _ _
  have e87 : ∀ j : Fin 9, lookSym (ctL4 c) [i, j, 8, 7] = lookSym (ctL4 c) [i, j, 7, 8] :=
    fun j => lookSym_last _ _ _ _ _
  simp only [h1, e76, e86, e87, ctL2_table, ctL4_table66, ctL4_table67, ctL4_table68, ctL4_table77, ctL4_table78, ctL4_table88]
  fin_cases i <;> simp <;> ring

theorem cosBetaSquared_pos (t : ℝ) : 0 < cosBetaSquared t := by
  have := mul_self_nonneg t
  exact div_pos one_pos (by linarith)

theorem cosBeta_pos (t : ℝ) : 0 < cosBeta t := Real.sqrt_pos.2 (cosBetaSquared_pos t)

theorem cosBeta_sq (t : ℝ) : cosBeta t ^ 2 = cosBetaSquared t :=
  Real.sq_sqrt (cosBetaSquared_pos t).le

theorem sinBeta_eq (t : ℝ) : sinBeta t = |t| * cosBeta t := by
  unfold sinBeta sinBetaSquared cosBeta
  rw [Real.sqrt_mul (mul_self_nonneg t), Real.sqrt_mul_self_eq_abs]

/-- The tree-level vacuum of the input: `v1 = v cos β`, `v2 = v sin β` and `vs`. -/
noncomputable def inputVev (v : ℝ) (q : Input) : FVec 9 ℝ :=
  vevTree (v * cosBeta q.TanBeta) (v * sinBeta q.TanBeta) q.Nvs

/-- For a positive `tan β` the angle is the one with the given tangent. -/
theorem C75_n2hdm_angle (t : ℝ) (ht : 0 ≤ t) :
    cosBeta t = Real.cos (Real.arctan t) ∧ sinBeta t = Real.sin (Real.arctan t) := by
  have h : cosBeta t = Real.cos (Real.arctan t) := by
    rw [Real.cos_arctan, cosBeta, cosBetaSquared, Real.sqrt_div zero_le_one, Real.sqrt_one,
      pow_two]
  refine ⟨h, ?_⟩
  rw [sinBeta_eq, h, Real.cos_arctan, Real.sin_arctan, abs_of_nonneg ht]
  ring

/-- With the parameters of `set_gen` the vacuum of the input is a stationary point of the tree-level
potential: every derivative mode vanishes. -/
theorem C75_n2hdm_stationary (v : ℝ) (q : Input) (ht : 0 < q.TanBeta) (s : FVec 9 ℝ → ℝ)
    (use force : Bool) (i : Fin 9) :
    vTree use s (tree (setGen v q)) (inputVev v q) ((i : Int) + 1) force = 0 := by
  have h0 : ¬ ((i : Int) + 1 = 0) := by omega
  have h1 : (((i : Int) + 1) == 0) = false := by simpa using h0
  simp only [vTree, h0, h1, fieldIndex_succ, Bool.false_and, Bool.and_false, if_false, reduceIte]
  simp only [inputVev, tree_grad, sinBeta_eq, setGen, abs_of_pos ht]
  generalize cosBeta q.TanBeta = c
  have := ht.ne'
  fin_cases i <;> simp <;> field_simp <;> ring

example : 0 < (⟨1, 1, 1, 1, 1, 1, 1, 1, 2, 100, 1⟩ : Input).TanBeta := by norm_num

/-- For a negative `tan β` the vacuum of the input is not a stationary point of the potential: the
sine is taken without its sign. -/
theorem C75_n2hdm_negative_fails : ∃ (q : Input), q.TanBeta ≠ 0 ∧
    ∀ s force, vTree false s (tree (setGen 246 q)) (inputVev 246 q) 7 force ≠ 0 := by
  refine ⟨⟨0, 0, 0, 0, 0, 0, 0, 0, -1, 1, 1⟩, by norm_num, fun s force => ?_⟩
  have h : vTree false s (tree (setGen 246 ⟨0, 0, 0, 0, 0, 0, 0, 0, -1, 1, 1⟩))
      (inputVev 246 ⟨0, 0, 0, 0, 0, 0, 0, 0, -1, 1, 1⟩) 7 force =
      grad (tree (setGen 246 ⟨0, 0, 0, 0, 0, 0, 0, 0, -1, 1, 1⟩))
        (inputVev 246 ⟨0, 0, 0, 0, 0, 0, 0, 0, -1, 1, 1⟩) 6 := by
    have := fieldIndex_succ (n := 9) 6
    simp [vTree]
    norm_num at this
    rw [this]
  rw [h, inputVev, tree_grad]
  have hc := cosBeta_pos (-1)
  simp [setGen, sinBeta_eq]
  linarith

set_option maxHeartbeats 1000000 in
/-- The scalar masses at the vacuum of the input: the Goldstone bosons `(v1, v2)` of the three pairs
of fields are massless, the charged Higgs boson has the squared mass
`m12² / (sin β cos β) - v² (λ4 + λ5) / 2` and the CP-odd one `m12² / (sin β cos β) - v² λ5`; the
CP-even fields do not mix with the others, and their mass matrix is the published one. -/
theorem C75_n2hdm_masses (v : ℝ) (q : Input) (ht : 0 < q.TanBeta) (d : Fin 9 → Fin 9 → ℝ) :
    ∃ M, higgsMassMatrix (tree (setGen v q)) d (inputVev v q) 0 0 = Outcome.ok M ∧
      (∀ a b : Fin 9, (a, b) ∈ [((0 : Fin 9), (1 : Fin 9)), (2, 3), (4, 5)] →
        ∀ i, M i a * cosBeta q.TanBeta + M i b * sinBeta q.TanBeta = 0) ∧
      (∀ a b : Fin 9, (a, b) ∈ [((0 : Fin 9), (1 : Fin 9)), (2, 3)] →
        ∀ i, -(M i a * sinBeta q.TanBeta) + M i b * cosBeta q.TanBeta =
          (q.RealMMix / (sinBeta q.TanBeta * cosBeta q.TanBeta) - v ^ 2 * (q.L4 + q.RL5) / 2) *
            (if i = a then -sinBeta q.TanBeta else if i = b then cosBeta q.TanBeta else 0)) ∧
      (∀ i, -(M i 4 * sinBeta q.TanBeta) + M i 5 * cosBeta q.TanBeta =
          (q.RealMMix / (sinBeta q.TanBeta * cosBeta q.TanBeta) - v ^ 2 * q.RL5) *
            (if i = 4 then -sinBeta q.TanBeta else if i = 5 then cosBeta q.TanBeta else 0)) ∧
      (∀ i, i ≠ 6 → i ≠ 7 → i ≠ 8 → M i 6 = 0 ∧ M i 7 = 0 ∧ M i 8 = 0) ∧
      M 6 6 = q.RealMMix * q.TanBeta + v ^ 2 * cosBeta q.TanBeta ^ 2 * q.L1 ∧
      M 6 7 = -q.RealMMix + v ^ 2 * sinBeta q.TanBeta * cosBeta q.TanBeta *
        (q.L3 + q.L4 + q.RL5) ∧
      M 7 7 = q.RealMMix / q.TanBeta + v ^ 2 * sinBeta q.TanBeta ^ 2 * q.L2 ∧
      M 6 8 = v * cosBeta q.TanBeta * q.Nvs * q.NL7 ∧
      M 7 8 = v * sinBeta q.TanBeta * q.Nvs * q.NL8 ∧
      M 8 8 = q.Nvs ^ 2 * q.NL6 := by
  refine ⟨mass0 (tree (setGen v q)) d (inputVev v q) 0, by simp [higgsMassMatrix], ?_⟩
  have h : ∀ i j, massUpper (tree (setGen v q)) d (inputVev v q) 0 i j =
      hessianCT (tree (setGen v q)) (inputVev v q) i j := by
    intro i j; simp [massUpper, hessianCT]
  have hs : ∀ i j, mass0 (tree (setGen v q)) d (inputVev v q) 0 i j =
      hessianCT (tree (setGen v q)) (inputVev v q) i j := by
    intro i j
    rw [mass0, h, h]
    split_ifs
    · rfl
    · rw [inputVev, tree_hess, tree_hess]
      fin_cases i <;> fin_cases j <;> rfl
  have hc := cosBeta_sq q.TanBeta
  have hne := (cosBeta_pos q.TanBeta).ne'
  have hc1 : cosBeta q.TanBeta ^ 2 * (1 + q.TanBeta ^ 2) = 1 := by
    rw [hc, cosBetaSquared]; field_simp
  have ht' := ht.ne'
  have hm : q.RealMMix / (q.TanBeta * cosBeta q.TanBeta * cosBeta q.TanBeta) =
      q.RealMMix * (1 + q.TanBeta ^ 2) * q.TanBeta⁻¹ := by
    field_simp
    linear_combination -q.RealMMix * hc1
  have hr : q.TanBeta * q.TanBeta⁻¹ = 1 := mul_inv_cancel₀ ht'
  simp only [hs]
  simp only [inputVev, tree_hess, sinBeta_eq, abs_of_pos ht, hm]
  simp only [setGen, sinBeta_eq, abs_of_pos ht]
  obtain ⟨l1, l2, l3, l4, l5, l6, l7, l8, t, vs, m⟩ := q
  dsimp only at *
  clear hs h hm ht ht' hc
  generalize cosBeta t = c at *
  refine ⟨?_, ?_, ?_, ?_, ?_, ?_, ?_, ?_, ?_, ?_⟩
  · intro a b hab i
    simp only [List.mem_cons, Prod.mk.injEq, List.not_mem_nil, or_false] at hab
    rcases hab with ⟨rfl, rfl⟩ | ⟨rfl, rfl⟩ | ⟨rfl, rfl⟩ <;> fin_cases i <;> simp [blocks]
    all_goals first
      | ring1
      | linear_combination (m * c) * hr
  · intro a b hab i
    simp only [List.mem_cons, Prod.mk.injEq, List.not_mem_nil, or_false] at hab
    rcases hab with ⟨rfl, rfl⟩ | ⟨rfl, rfl⟩ <;> fin_cases i <;> simp [blocks]
    all_goals first
      | linear_combination (m * (1 + t ^ 2) * c) * hr + ((l4 + l5) / 2 * v ^ 2 * t * c) * hc1
      | linear_combination (-m * t * c) * hr - ((l4 + l5) / 2 * v ^ 2 * c) * hc1
  · intro i
    fin_cases i <;> simp [blocks]
    · linear_combination (m * (1 + t ^ 2) * c) * hr + (l5 * v ^ 2 * t * c) * hc1
    · linear_combination (-m * t * c) * hr - (l5 * v ^ 2 * c) * hc1
  · intro i h6 h7 h8
    fin_cases i <;> simp [blocks] at h6 h7 h8 ⊢
  · simp [blocks]; ring
  · simp [blocks]; ring
  · simp [blocks, div_eq_mul_inv]; ring
  · simp [blocks]; ring
  · simp [blocks]; ring
  · simp [blocks]; ring

end Verif.Lagrangian.N2HDM
