import Verif.Spline.Roots
import Verif.Spline.Lemmas
import Mathlib.Tactic.Linarith
import Mathlib.Tactic.LinearCombination
import Mathlib.Tactic.FieldSimp
import Mathlib.Tactic.Ring
import Mathlib.Tactic.NormNum
import Mathlib.Tactic.Positivity
import Mathlib.Data.List.GetD

/-!
# C135: the solutions of `spline(x) = y`
-/

set_option linter.unusedVariables false
set_option linter.unusedSimpArgs false
set_option linter.style.longLine false

namespace Verif.Spline.Roots

namespace RootsSpec

/-- the cubic polynomial -/
def poly (a b c d x : ℝ) : ℝ := a + b * x + c * x ^ 2 + d * x ^ 3

/-- `l` are exactly the zeros of the polynomial, in increasing order -/
def AreZeros (a b c d : ℝ) (l : List ℝ) : Prop :=
  l.Pairwise (· < ·) ∧ ∀ x, x ∈ l ↔ poly a b c d x = 0

/-- the discriminant of a quadratic polynomial with leading coefficient 1 is zero or stands out of
the round-off margin -/
def Clear2 (eps a b : ℝ) : Prop :=
  (b / 2) ^ 2 = a ∨
    (6 * (b / 2) ^ 2 + 3 * |a| + |(b / 2) ^ 2 - a|) * (eps / 2) < |(b / 2) ^ 2 - a|

/-- the discriminant of a normalised cubic polynomial stands out of the margin, or is zero and the
double zero stands out, or is a triple zero -/
def Clear3 (eps a b c : ℝ) : Prop :=
  discrErr3 eps a b c < |discr3 a b c| ∨
    (discr3 a b c = 0 ∧ (depP b c = 0 ∨ pErr eps b c < |depP b c|))

/-- what is needed of a polynomial -/
def Clear (eps a b c d : ℝ) : Prop :=
  if d ≠ 0 then Clear3 eps (a / d) (b / d) (c / d)
  else if c ≠ 0 then Clear2 eps (a / c) (b / c) else True

end RootsSpec

open RootsSpec

/-! ## Linear and quadratic polynomials -/

/-- **C135** a linear polynomial that is not zero -/
theorem C135_linear (a b : ℝ) (h : a ≠ 0 ∨ b ≠ 0) : AreZeros a b 0 0 (solveLinear a b) := by
  unfold solveLinear AreZeros poly
  by_cases hb : b = 0
  · subst hb
    have ha : a ≠ 0 := by
      rcases h with h | h
      · exact h
      · exact absurd rfl h
    simp [ha]
  · rw [if_neg hb]
    refine ⟨List.pairwise_singleton _ _, fun x => ?_⟩
    rw [List.mem_singleton]
    constructor
    · rintro rfl
      field_simp
      ring
    · intro hx
      field_simp
      linarith

theorem newton2_fix (a b c x : ℝ) (h : (c * x + b) * x + a = 0) (k : Nat) :
    (newton2 a b c)^[k] x = x := by
  have h1 : newton2 a b c x = x := by
    simp only [newton2, h, zero_div, sub_zero, ite_self]
  exact Function.iterate_fixed h1 k

/-- **C135** a quadratic polynomial -/
theorem C135_quadratic (eps a b c : ℝ) (k : Nat) (he : 0 ≤ eps) (hc : c ≠ 0)
    (hcl : Clear2 eps (a / c) (b / c)) : AreZeros a b c 0 (solveQuadratic eps a b c k) := by
  have hp : (0.5 : ℝ) * b / c = b / c / 2 := by ring
  have key : ∀ x : ℝ, (c * x + b) * x + a = c * ((x + b / c / 2) ^ 2 - ((b / c / 2) ^ 2 - a / c)) := by
    intro x
    field_simp
    ring
  have key' : ∀ x : ℝ, poly a b c 0 x = (c * x + b) * x + a := by
    intro x; unfold poly; ring
  unfold solveQuadratic
  rw [if_neg hc]
  dsimp only
  rw [hp]
  set P := b / c / 2 with hP
  set D := P * P - a / c with hD
  have hD2 : P ^ 2 - a / c = D := by rw [hD]; ring
  have herr : (6 * (P * P) + 3 * |a / c| + |D|) * (0.5 * eps) =
      (6 * P ^ 2 + 3 * |a / c| + |P ^ 2 - a / c|) * (eps / 2) := by
    rw [hD2]; ring
  have hz : ∀ x : ℝ, (c * x + b) * x + a = 0 ↔ (x + P) ^ 2 = D := by
    intro x
    rw [key x, mul_eq_zero, or_iff_right hc, hD2, sub_eq_zero]
  have hmap : ∀ l : List ℝ, (∀ x ∈ l, (c * x + b) * x + a = 0) → l.map (newton2 a b c)^[k] = l := by
    intro l hl
    conv_rhs => rw [← List.map_id l]
    exact List.map_congr_left fun x hx => newton2_fix a b c x (hl x hx) k
  by_cases h0 : D = 0
  · have h1 : |D| ≤ (6 * (P * P) + 3 * |a / c| + |D|) * (0.5 * eps) := by
      rw [h0, abs_zero]
      have := mul_self_nonneg P
      have := abs_nonneg (a / c)
      positivity
    rw [if_pos h1, hmap _ (by
      intro x hx
      rw [List.mem_singleton] at hx
      rw [hz, hx, h0]; ring)]
    refine ⟨List.pairwise_singleton _ _, fun x => ?_⟩
    rw [List.mem_singleton, key', hz, h0]
    constructor
    · rintro rfl; ring
    · intro h
      have := pow_eq_zero_iff (two_ne_zero) |>.1 h
      linarith
  · have h1 : ¬ |D| ≤ (6 * (P * P) + 3 * |a / c| + |D|) * (0.5 * eps) := by
      rw [herr, not_le]
      rcases hcl with h | h
      · exact absurd (by rw [← hD2]; rw [← hP] at h; linarith) h0
      · rw [← hP] at h
        rw [← hD2]
        exact h
    rw [if_neg h1]
    by_cases hneg : D < 0
    · rw [if_pos hneg]
      refine ⟨List.Pairwise.nil, fun x => ?_⟩
      rw [key', hz]
      simp only [List.map_nil, List.not_mem_nil, false_iff]
      intro h
      have := sq_nonneg (x + P)
      linarith
    · rw [if_neg hneg]
      have hpos : 0 < D := lt_of_le_of_ne (not_lt.1 hneg) (Ne.symm h0)
      have hs := Real.sqrt_pos.2 hpos
      have hsq := Real.sq_sqrt hpos.le
      rw [hmap _ (by
        intro x hx
        simp only [List.mem_cons, List.not_mem_nil, or_false] at hx
        rw [hz]
        rcases hx with rfl | rfl
        · linear_combination hsq
        · linear_combination hsq)]
      refine ⟨?_, fun x => ?_⟩
      · simp only [List.pairwise_cons, List.mem_singleton, List.not_mem_nil]
        refine ⟨fun y hy => by rw [hy]; linarith, by simp⟩
      · rw [key', hz]
        simp only [List.mem_cons, List.not_mem_nil, or_false]
        constructor
        · rintro (rfl | rfl)
          · linear_combination hsq
          · linear_combination hsq
        · intro h
          rcases sq_eq_sq_iff_eq_or_eq_neg.1 (h.trans hsq.symm) with h | h
          · right; linarith
          · left; linarith

/-! ## Cubic polynomials -/

theorem depressed_iff (a b c x : ℝ) :
    poly a b c 1 x = 0 ↔
      (x + c / 3) ^ 3 - 3 * depP b c * (x + c / 3) - 2 * depQ a b c = 0 := by
  have : poly a b c 1 x = (x + c / 3) ^ 3 - 3 * depP b c * (x + c / 3) - 2 * depQ a b c := by
    unfold poly depP depQ depR
    ring
  rw [this]

/-- the roots of the depressed cubic are all of its roots, without repetition -/
theorem depressed_spec (eps a b c : ℝ) (he : 0 ≤ eps) (hcl : Clear3 eps a b c) :
    (depressed eps a b c).Nodup ∧
    ∀ z, z ∈ depressed eps a b c ↔ z ^ 3 - 3 * depP b c * z - 2 * depQ a b c = 0 := by
  have hdisc : discr3 a b c = depP b c * depP b c * depP b c - depQ a b c * depQ a b c := rfl
  have herr0 : 0 ≤ discrErr3 eps a b c := by
    unfold discrErr3 pErr
    have := mul_self_nonneg (depP b c)
    have := mul_self_nonneg c
    positivity
  have hperr0 : 0 ≤ pErr eps b c := by
    unfold pErr
    have := mul_self_nonneg c
    positivity
  unfold depressed
  dsimp only
  generalize hp : depP b c = p at *
  generalize hq : depQ a b c = q at *
  generalize hD : discr3 a b c = D at *
  by_cases h0 : D = 0
  · rw [if_pos (by rw [h0, abs_zero]; exact herr0)]
    have hpq : p * p * p = q * q := by linarith
    have hcl' : p = 0 ∨ pErr eps b c < |p| := by
      rcases hcl with h | h
      · rw [hD, h0, abs_zero] at h
        exact absurd h (not_lt.2 herr0)
      · rw [hp] at h
        exact h.2
    by_cases hp0 : p = 0
    · rw [if_pos (by rw [hp0, abs_zero]; exact hperr0)]
      have hq0 : q = 0 := by
        rw [hp0] at hpq
        have : q * q = 0 := by rw [← hpq]; ring
        exact mul_self_eq_zero.1 this
      refine ⟨List.nodup_singleton _, fun z => ?_⟩
      rw [List.mem_singleton, hp0, hq0]
      constructor
      · rintro rfl; ring
      · intro h
        have h3 : z ^ 3 = 0 := by linarith
        exact (pow_eq_zero_iff (by norm_num)).1 h3
    · rw [if_neg (by rcases hcl' with h | h
                     · exact absurd h hp0
                     · exact not_le.2 h)]
      have hq0 : q ≠ 0 := by
        intro h
        rw [h] at hpq
        have : p ^ 3 = 0 := by rw [← sub_eq_zero]; ring_nf; linarith
        exact hp0 ((pow_eq_zero_iff (by norm_num)).1 this)
      set w := q / p with hw
      have hw2 : w ^ 2 = p := by
        rw [hw]; field_simp; linarith
      have hw3 : w ^ 3 = q := by
        rw [pow_succ, hw2, hw]; field_simp
      have hw0 : w ≠ 0 := by
        intro h; rw [h] at hw3; apply hq0; rw [← hw3]; norm_num
      have e1 : 2 * q / p = 2 * w := by rw [hw]; ring
      have e2 : -0.5 * (2 * q / p) = -w := by rw [e1]; ring
      rw [e2, e1]
      refine ⟨?_, fun z => ?_⟩
      · simp only [List.nodup_cons, List.mem_singleton, List.not_mem_nil, not_false_eq_true,
          List.nodup_nil, and_true]
        intro h
        apply hw0
        linarith
      · have hf : z ^ 3 - 3 * p * z - 2 * q = (z - 2 * w) * (z + w) ^ 2 := by
          rw [← hw3, ← hw2]; ring
        rw [hf, mul_eq_zero, pow_eq_zero_iff (two_ne_zero)]
        simp only [List.mem_cons, List.not_mem_nil, or_false]
        constructor
        · rintro (h | h)
          · left; linarith
          · right; linarith
        · rintro (h | h)
          · left; linarith
          · right; linarith
  · rw [if_neg (by
      rcases hcl with h | h
      · rw [hD] at h; exact not_le.2 h
      · rw [hD] at h; exact absurd h.1 h0)]
    by_cases hpos : D > 0
    · rw [if_pos hpos]
      have hp3 : q ^ 2 < p ^ 3 := by
        have e1 : p ^ 3 = p * p * p := by ring
        have e2 : q ^ 2 = q * q := by ring
        rw [e1, e2]; linarith
      have hpp : 0 < p := by
        by_contra h
        have hp' : p ≤ 0 := not_lt.1 h
        have : p ^ 3 ≤ 0 := by
          have : p ^ 3 = p * p ^ 2 := by ring
          rw [this]
          exact mul_nonpos_of_nonpos_of_nonneg hp' (sq_nonneg p)
        have := sq_nonneg q
        linarith
      set s := Real.sqrt p with hs
      have hs0 : 0 < s := Real.sqrt_pos.2 hpp
      have hs2 : s ^ 2 = p := Real.sq_sqrt hpp.le
      have hps : 0 < p * s := mul_pos hpp hs0
      have hps2 : (p * s) ^ 2 = p ^ 3 := by rw [mul_pow, hs2]; ring
      have hqa : |q| < p * s := by
        rw [← hps2] at hp3
        exact abs_lt_of_sq_lt_sq hp3 hps.le
      have hq1 : -1 ≤ q / (p * s) := by
        rw [le_div_iff₀ hps]
        have := (abs_lt.1 hqa).1
        linarith
      have hq2 : q / (p * s) ≤ 1 := by
        rw [div_le_iff₀ hps]
        have := (abs_lt.1 hqa).2
        linarith
      set θ := Real.arccos (q / (p * s)) with hθ
      have hcos : Real.cos θ = q / (p * s) := Real.cos_arccos hq1 hq2
      set u := Real.cos (1 / 3 * θ) with hu
      set v := Real.sin (1 / 3 * θ) with hv
      have huv : v ^ 2 + u ^ 2 = 1 := Real.sin_sq_add_cos_sq _
      have h3 : 4 * u ^ 3 - 3 * u = q / (p * s) := by
        rw [← hcos, hu, ← Real.cos_three_mul]
        congr 1
        ring
      have hs3 : s ^ 3 * (q / (p * s)) = q := by
        have : s ^ 3 = p * s := by rw [pow_succ, hs2]
        rw [this]
        field_simp
      set t := Real.sqrt 3 with ht
      have ht0 : 0 < t := Real.sqrt_pos.2 (by norm_num)
      have ht2 : t ^ 2 = 3 := Real.sq_sqrt (by norm_num)
      have hc1 : Real.cos (2 * Real.pi / 3) = -1 / 2 := by
        have : 2 * Real.pi / 3 = Real.pi - Real.pi / 3 := by ring
        rw [this, Real.cos_pi_sub, Real.cos_pi_div_three]; norm_num
      have hs1 : Real.sin (2 * Real.pi / 3) = t / 2 := by
        have : 2 * Real.pi / 3 = Real.pi - Real.pi / 3 := by ring
        rw [this, Real.sin_pi_sub, Real.sin_pi_div_three]
      have hc2 : Real.cos (4 * Real.pi / 3) = -1 / 2 := by
        have : 4 * Real.pi / 3 = Real.pi / 3 + Real.pi := by ring
        rw [this, Real.cos_add_pi, Real.cos_pi_div_three]; norm_num
      have hs4 : Real.sin (4 * Real.pi / 3) = -(t / 2) := by
        have : 4 * Real.pi / 3 = Real.pi / 3 + Real.pi := by ring
        rw [this, Real.sin_add_pi, Real.sin_pi_div_three]
      have z1 : Real.cos (1 / 3 * θ - 2 * Real.pi / 3) = -u / 2 + t / 2 * v := by
        rw [Real.cos_sub, hc1, hs1, ← hu, ← hv]; ring
      have z2 : Real.cos (1 / 3 * θ - 4 * Real.pi / 3) = -u / 2 - t / 2 * v := by
        rw [Real.cos_sub, hc2, hs4, ← hu, ← hv]; ring
      rw [z1, z2]
      -- the angle
      have hθ0 : 0 < θ := by
        rw [hθ, Real.arccos_pos, div_lt_one hps]
        exact (abs_lt.1 hqa).2
      have hθπ : θ ≤ Real.pi := Real.arccos_le_pi _
      have hv0 : 0 < v := Real.sin_pos_of_pos_of_lt_pi (by linarith) (by linarith [Real.pi_pos])
      have hu0 : 1 / 2 ≤ u := by
        rw [← Real.cos_pi_div_three, hu]
        exact Real.cos_le_cos_of_nonneg_of_le_pi (by linarith) (by linarith [Real.pi_pos])
          (by linarith)
      have hu1 : 1 / 2 < u := by
        refine lt_of_le_of_ne hu0 fun h => ?_
        -- then `θ = π` and `q = -p s`
        have : q / (p * s) = -1 := by rw [← h3, ← h]; norm_num
        rw [div_eq_iff hps.ne'] at this
        have := (abs_lt.1 hqa).1
        linarith
      refine ⟨?_, fun z => ?_⟩
      · have htv : 0 < t * v := mul_pos ht0 hv0
        have hne1 : 2 * s * u ≠ 2 * s * (-u / 2 + t / 2 * v) := by
          intro h
          have h' : u = -u / 2 + t / 2 * v := mul_left_cancel₀ (by positivity) h
          have e : t * v = 3 * u := by linarith
          have e2 : (t * v) ^ 2 = 9 * u ^ 2 := by rw [e]; ring
          rw [mul_pow, ht2] at e2
          have : u ^ 2 = 1 / 4 := by linarith
          nlinarith
        have hne2 : 2 * s * u ≠ 2 * s * (-u / 2 - t / 2 * v) := by
          intro h
          have h' : u = -u / 2 - t / 2 * v := mul_left_cancel₀ (by positivity) h
          linarith
        have hne3 : 2 * s * (-u / 2 + t / 2 * v) ≠ 2 * s * (-u / 2 - t / 2 * v) := by
          intro h
          have h' := mul_left_cancel₀ (by positivity) h
          linarith
        simp only [List.nodup_cons, List.mem_cons, List.not_mem_nil, or_false, not_or,
          not_false_eq_true, List.nodup_nil, and_true]
        exact ⟨⟨hne1, hne2⟩, hne3⟩
      · have hf : z ^ 3 - 3 * p * z - 2 * q =
            (z - 2 * s * u) * (z - 2 * s * (-u / 2 + t / 2 * v)) *
              (z - 2 * s * (-u / 2 - t / 2 * v)) := by
          have hv2 : v ^ 2 = 1 - u ^ 2 := by linarith
          have hq' : q = s ^ 3 * (4 * u ^ 3 - 3 * u) := by rw [h3, hs3]
          have : (z - 2 * s * u) * (z - 2 * s * (-u / 2 + t / 2 * v)) *
              (z - 2 * s * (-u / 2 - t / 2 * v)) =
              (z - 2 * s * u) * ((z + s * u) ^ 2 - s ^ 2 * t ^ 2 * v ^ 2) := by ring
          rw [this, ht2, hv2, hq', ← hs2]
          ring
        rw [hf, mul_eq_zero, mul_eq_zero]
        simp only [List.mem_cons, List.not_mem_nil, or_false, sub_eq_zero]
        tauto
    · rw [if_neg hpos]
      have hneg : D < 0 := lt_of_le_of_ne (not_lt.1 hpos) h0
      rw [if_pos hneg]
      refine ⟨List.nodup_singleton _, fun z => ?_⟩
      rw [List.mem_singleton]
      set w := Real.sqrt (-D) with hw
      have hw0 : 0 < w := Real.sqrt_pos.2 (by linarith)
      have hw2 : w ^ 2 = -D := Real.sq_sqrt (by linarith)
      set σ : ℝ := if 0 ≤ q then 1 else -1 with hσ
      have hσ2 : σ * σ = 1 := by
        rw [hσ]; split <;> norm_num
      have hσq : σ * |q| = q := by
        rw [hσ]
        split
        · rename_i h; rw [abs_of_nonneg h, one_mul]
        · rename_i h; rw [abs_of_neg (not_le.1 h)]; ring
      have hB : 0 < |q| + w := by have := abs_nonneg q; linarith
      set C := σ * (|q| + w) ^ ((1 : ℝ) / 3) with hC
      have hr3 : ((|q| + w) ^ ((1 : ℝ) / 3)) ^ 3 = |q| + w := by
        rw [← Real.rpow_natCast, ← Real.rpow_mul hB.le]
        norm_num
      have hC3 : C ^ 3 = q + σ * w := by
        rw [hC, mul_pow, hr3]
        have : σ ^ 3 = σ := by
          have : σ ^ 3 = σ * σ * σ := by ring
          rw [this, hσ2, one_mul]
        rw [this, mul_add, hσq]
      have hC0 : C ≠ 0 := by
        rw [hC]
        have h1 : σ ≠ 0 := by intro h; rw [h] at hσ2; norm_num at hσ2
        exact mul_ne_zero h1 (Real.rpow_pos_of_pos hB _).ne'
      have hA0 : q + σ * w ≠ 0 := by rw [← hC3]; exact pow_ne_zero 3 hC0
      set E := p / C with hE
      have hCE : C * E = p := by rw [hE]; field_simp
      have hE3 : E ^ 3 = q - σ * w := by
        have h1 : C ^ 3 * E ^ 3 = p ^ 3 := by rw [← mul_pow, hCE]
        have h2 : (q + σ * w) * (q - σ * w) = p ^ 3 := by
          have : (q + σ * w) * (q - σ * w) = q * q - (σ * σ) * w ^ 2 := by ring
          rw [this, hσ2, hw2]
          linear_combination hdisc
        rw [hC3, ← h2] at h1
        exact mul_left_cancel₀ hA0 h1
      have hCne : C - E ≠ 0 := by
        intro h
        have : C = E := by linarith
        have h3 : C ^ 3 = E ^ 3 := by rw [this]
        rw [hC3, hE3] at h3
        have : σ * w = 0 := by linarith
        rcases mul_eq_zero.1 this with h | h
        · rw [h] at hσ2; norm_num at hσ2
        · exact hw0.ne' h
      have hf : z ^ 3 - 3 * p * z - 2 * q =
          (z - (C + E)) * ((z + (C + E) / 2) ^ 2 + 3 / 4 * (C - E) ^ 2) := by
        have h2q : 2 * q = C ^ 3 + E ^ 3 := by rw [hC3, hE3]; ring
        rw [h2q, ← hCE]
        ring
      rw [hf, mul_eq_zero]
      have hpos2 : 0 < (z + (C + E) / 2) ^ 2 + 3 / 4 * (C - E) ^ 2 := by
        have := sq_nonneg (z + (C + E) / 2)
        have : 0 < (C - E) ^ 2 := by positivity
        linarith
      constructor
      · rintro rfl; left; ring
      · rintro (h | h)
        · linarith
        · exact absurd h hpos2.ne'

theorem newton3_fix (a b c z : ℝ) (h : ((z + c) * z + b) * z + a = 0) (k : Nat) :
    (newton3 a b c)^[k] z = z := by
  have h1 : newton3 a b c z = z := by
    simp only [newton3, h, zero_div, sub_zero, ite_self]
  exact Function.iterate_fixed h1 k

/-- the search for the smallest modulus finds it -/
theorem smallest_spec (z : List ℝ) (hz : z ≠ []) :
    (smallest z).2 < z.length ∧ ∀ j : Nat, j < z.length →
      |z.getD (smallest z).2 0| ≤ |z.getD j 0| := by
  have hl : 0 < z.length := List.length_pos_iff.2 hz
  have inv : ∀ m : Nat, m + 1 ≤ z.length →
      let s := (List.range' 1 m).foldl
        (fun s i => if s.1 > |z.getD i 0| then (|z.getD i 0|, i) else s) (|z.getD 0 0|, 0)
      s.1 = |z.getD s.2 0| ∧ s.2 ≤ m ∧ ∀ j : Nat, j ≤ m → s.1 ≤ |z.getD j 0| := by
    intro m hm
    induction m with
    | zero =>
      refine ⟨rfl, le_rfl, fun j hj => ?_⟩
      have : j = 0 := by omega
      subst this
      exact le_rfl
    | succ m ih =>
      obtain ⟨h1, h2, h3⟩ := ih (by omega)
      rw [List.range'_concat, List.foldl_append]
      simp only [List.foldl_cons, List.foldl_nil, one_mul]
      set s := (List.range' 1 m).foldl
        (fun s i => if s.1 > |z.getD i 0| then (|z.getD i 0|, i) else s) (|z.getD 0 0|, 0) with hs
      by_cases h : s.1 > |z.getD (1 + m) 0|
      · rw [if_pos h]
        refine ⟨rfl, by dsimp only; omega, fun j hj => ?_⟩
        by_cases hj' : j = 1 + m
        · rw [hj']
        · exact le_trans h.le (h3 j (by omega))
      · rw [if_neg h]
        refine ⟨h1, by omega, fun j hj => ?_⟩
        by_cases hj' : j = 1 + m
        · rw [hj']; exact not_lt.1 h
        · exact h3 j (by omega)
  obtain ⟨h1, h2, h3⟩ := inv (z.length - 1) (by omega)
  refine ⟨?_, fun j hj => ?_⟩
  · have : (smallest z).2 ≤ z.length - 1 := h2
    omega
  · have e : (smallest z).1 = |z.getD (smallest z).2 0| := h1
    rw [← e]
    exact h3 j (by omega)

theorem forceZero_id (a : ℝ) (z : List ℝ) (h : a = 0 → (0 : ℝ) ∈ z) : forceZero a z = z := by
  unfold forceZero
  by_cases ha : a = 0
  · rw [if_pos ha]
    have h0 := h ha
    have hne : z ≠ [] := List.ne_nil_of_mem h0
    obtain ⟨h1, h2⟩ := smallest_spec z hne
    obtain ⟨j, hj, hjz⟩ := List.mem_iff_getElem.1 h0
    have h3 := h2 j hj
    rw [List.getD_eq_getElem _ _ hj, hjz, abs_zero] at h3
    have h4 : z.getD (smallest z).2 0 = 0 := abs_eq_zero.1 (le_antisymm h3 (abs_nonneg _))
    rw [List.getD_eq_getElem _ _ h1] at h4
    conv_rhs => rw [← List.set_getElem_self h1]
    rw [h4]
  · rw [if_neg ha]

theorem normal_spec (eps a b c : ℝ) (k : Nat) (he : 0 ≤ eps) (hcl : Clear3 eps a b c) :
    AreZeros a b c 1 (solveNormal eps a b c k) := by
  obtain ⟨hnd, hmem⟩ := depressed_spec eps a b c he hcl
  have hpoly : ∀ x : ℝ, poly a b c 1 x = ((x + c) * x + b) * x + a := by
    intro x; unfold poly; ring
  have hroot : ∀ z ∈ depressed eps a b c, poly a b c 1 (z - 1 / 3 * c) = 0 := by
    intro z hz
    rw [depressed_iff]
    have := (hmem z).1 hz
    have e : z - 1 / 3 * c + c / 3 = z := by ring
    rw [e]
    exact this
  have hmap : ((depressed eps a b c).map fun z => (newton3 a b c)^[k] (z - 1 / 3 * c)) =
      (depressed eps a b c).map fun z => z - 1 / 3 * c := by
    refine List.map_congr_left fun z hz => newton3_fix a b c _ ?_ k
    rw [← hpoly]
    exact hroot z hz
  have hall : ∀ x, x ∈ ((depressed eps a b c).map fun z => z - 1 / 3 * c) ↔ poly a b c 1 x = 0 := by
    intro x
    rw [List.mem_map]
    constructor
    · rintro ⟨z, hz, rfl⟩
      exact hroot z hz
    · intro h
      refine ⟨x + c / 3, (hmem _).2 ((depressed_iff a b c x).1 h), by ring⟩
  unfold solveNormal
  rw [hmap, forceZero_id a _ (by
    intro ha
    rw [hall]
    unfold poly
    rw [ha]; ring)]
  have hperm := List.perm_insertionSort (· ≤ ·) ((depressed eps a b c).map fun z => z - 1 / 3 * c)
  refine ⟨?_, fun x => ?_⟩
  · have hs : (((depressed eps a b c).map fun z => z - 1 / 3 * c).insertionSort (· ≤ ·)).Pairwise
        (· ≤ ·) := List.pairwise_insertionSort (· ≤ ·) _
    have hn : (((depressed eps a b c).map fun z => z - 1 / 3 * c).insertionSort (· ≤ ·)).Nodup := by
      rw [hperm.nodup_iff]
      exact hnd.map fun x y h => by
        have h' : x - 1 / 3 * c = y - 1 / 3 * c := h
        linarith
    exact (hs.and hn).imp fun h => lt_of_le_of_ne h.1 h.2
  · rw [hperm.mem_iff, hall]

/-- **C135** the zeros of a polynomial of degree up to three that is not zero are found exactly
and in increasing order, whatever the number of Newton steps, if its discriminant is zero or
stands out of the round-off margin. -/
theorem C135_cubic (eps a b c d : ℝ) (k : Nat) (he : 0 ≤ eps)
    (hne : a ≠ 0 ∨ b ≠ 0 ∨ c ≠ 0 ∨ d ≠ 0) (hcl : Clear eps a b c d) :
    AreZeros a b c d (solveCubic eps a b c d k) := by
  unfold solveCubic
  by_cases hd : d = 0
  · subst hd
    rw [if_pos rfl]
    rw [Clear, if_neg (by simp)] at hcl
    by_cases hc : c = 0
    · subst hc
      unfold solveQuadratic
      rw [if_pos rfl]
      refine C135_linear a b ?_
      rcases hne with h | h | h | h
      · exact Or.inl h
      · exact Or.inr h
      · exact absurd rfl h
      · exact absurd rfl h
    · rw [if_pos hc] at hcl
      exact C135_quadratic eps a b c k he hc hcl
  · rw [if_neg hd]
    rw [Clear, if_pos hd] at hcl
    have h1 := normal_spec eps (a / d) (b / d) (c / d) k he hcl
    have h2 : AreZeros a b c d (solveNormal eps (a / d) (b / d) (c / d) k) := by
      refine ⟨h1.1, fun x => ?_⟩
      rw [h1.2]
      have : poly a b c d x = d * poly (a / d) (b / d) (c / d) 1 x := by
        unfold poly; field_simp
      rw [this, mul_eq_zero, or_iff_right hd]
    by_cases hd1 : d = 1
    · subst hd1
      simp only [ne_eq, not_true_eq_false, if_false, div_one] at h2 ⊢
      exact h2
    · rw [if_pos hd1]
      exact h2

/-- without round-off margins every polynomial is clear -/
theorem clear_exact (a b c d : ℝ) : Clear 0 a b c d := by
  unfold Clear
  split
  · unfold Clear3
    have e1 : discrErr3 0 (a / d) (b / d) (c / d) = 0 := by
      unfold discrErr3 pErr; simp
    have e2 : pErr 0 (b / d) (c / d) = 0 := by unfold pErr; simp
    rw [e1, e2]
    by_cases h : discr3 (a / d) (b / d) (c / d) = 0
    · right
      refine ⟨h, ?_⟩
      by_cases hp : depP (b / d) (c / d) = 0
      · exact Or.inl hp
      · exact Or.inr (abs_pos.2 hp)
    · exact Or.inl (abs_pos.2 h)
  · split
    · unfold Clear2
      by_cases h : (b / c / 2) ^ 2 = a / c
      · exact Or.inl h
      · right
        simpa using sub_ne_zero.2 h
    · trivial

/-- **C135** with exact arithmetic the zeros of every polynomial of degree up to three that is not
zero are found. -/
theorem C135_exact (a b c d : ℝ) (k : Nat) (hne : a ≠ 0 ∨ b ≠ 0 ∨ c ≠ 0 ∨ d ≠ 0) :
    AreZeros a b c d (solveCubic 0 a b c d k) :=
  C135_cubic 0 a b c d k le_rfl hne (clear_exact a b c d)

/-- the hypotheses of `C135_cubic` with the precision of the code: `(x-1)(x-2)(x-3)` -/
example : Clear getEps (-6) 11 (-6) 1 := by
  rw [Clear, if_pos one_ne_zero]
  left
  norm_num [discrErr3, discr3, depP, depQ, depR, pErr, getEps, abs_of_pos, abs_of_neg]

/-- **C135** within the margin a zero is found that is none: `x^2 + 2x + 1 + 2^-52` is positive
everywhere. -/
theorem C135_margin_fails : ∃ a b c : ℝ, (∀ x, 0 < poly a b c 0 x) ∧
    solveCubic getEps a b c 0 1 = [-1] := by
  refine ⟨1 + 1 / 2 ^ 52, 2, 1, fun x => ?_, ?_⟩
  · unfold poly
    have : 1 + 1 / 2 ^ 52 + 2 * x + 1 * x ^ 2 + 0 * x ^ 3 = (x + 1) ^ 2 + 1 / 2 ^ 52 := by ring
    rw [this]
    positivity
  · unfold solveCubic solveQuadratic
    rw [if_pos rfl, if_neg one_ne_zero]
    dsimp only
    rw [if_pos (by norm_num [getEps, abs_of_pos, abs_of_neg])]
    norm_num [newton2]

/-- **C135** the zero polynomial has one solution only, 0. -/
theorem C135_zero (eps : ℝ) (k : Nat) : solveCubic eps 0 0 0 0 k = [0] := by
  simp [solveCubic, solveQuadratic, solveLinear]

/-! ## The spline -/

/-- adding increasing roots to a list that lies below -/
theorem addRoots_exact (s : Spl ℝ) (i : Nat) (l : List ℝ) : ∀ x : List ℝ,
    l.Pairwise (· < ·) → (∀ t ∈ x, ∀ r ∈ l, 0 ≤ r → r < s.x (i + 1) - s.x i → t < s.x i + r) →
    l.foldl (addRoot 0 s i) x =
      x ++ (l.filter fun r => 0 ≤ r ∧ r < s.x (i + 1) - s.x i).map fun r => s.x i + r := by
  induction l with
  | nil => intro x _ _; simp
  | cons r l ih =>
    intro x hl hx
    have ht : tolerance 0 s i = 0 := by simp [tolerance]
    rw [List.foldl_cons]
    by_cases hr : 0 ≤ r ∧ r < s.x (i + 1) - s.x i
    · have hstep : addRoot 0 s i x r = x ++ [s.x i + r] := by
        unfold addRoot
        rw [ht]
        dsimp only
        rw [if_pos (by simpa using hr)]
        cases hg : x.getLast? with
        | none => rfl
        | some t =>
          dsimp only
          have hlt := hx t (List.mem_of_getLast? hg) r (by simp) hr.1 hr.2
          rw [if_neg (by rw [add_zero]; exact not_lt.2 hlt.le)]
      rw [hstep, ih _ (List.pairwise_cons.1 hl).2 ?_]
      · rw [List.filter_cons_of_pos (by simpa using hr)]
        simp
      · intro t ht' r' hr' h0 h1
        rw [List.mem_append, List.mem_singleton] at ht'
        rcases ht' with ht' | rfl
        · exact hx t ht' r' (by simp [hr']) h0 h1
        · have := (List.pairwise_cons.1 hl).1 r' hr'
          linarith
    · have hstep : addRoot 0 s i x r = x := by
        unfold addRoot
        rw [ht]
        dsimp only
        rw [if_neg (by simpa using hr)]
      rw [hstep, ih _ (List.pairwise_cons.1 hl).2
        (fun t ht' r' hr' => hx t ht' r' (by simp [hr']))]
      rw [List.filter_cons_of_neg (by simpa using hr)]

namespace RootsSpec

/-- the spline is not constant with the value `y` on a piece -/
def NotFlat (s : Spl ℝ) (y : ℝ) : Prop :=
  ∀ i : Nat, i + 1 < s.n → s.y i ≠ y ∨ s.b i ≠ 0 ∨ s.c i ≠ 0 ∨ s.d i ≠ 0

/-- neither are the extrapolations -/
def NotFlatOutside (s : Spl ℝ) (y : ℝ) : Prop :=
  (s.y 0 ≠ y ∨ s.b 0 ≠ 0 ∨ s.c0 ≠ 0) ∧
  (s.y (s.n - 1) ≠ y ∨ s.b (s.n - 1) ≠ 0 ∨ s.c (s.n - 1) ≠ 0)

end RootsSpec

theorem poly_horner (y0 y b c d h : ℝ) :
    poly (y0 - y) b c d h = 0 ↔ ((d * h + c) * h + b) * h + y0 = y := by
  unfold poly
  constructor
  · intro h'; linear_combination h'
  · intro h'; linear_combination h'

/-- the pieces -/
theorem pieces_exact (s : Spl ℝ) (f : Fits s) (y : ℝ) (hflat : NotFlat s y) (x : List ℝ)
    (hx : x.Pairwise (· < ·)) (hx0 : ∀ t ∈ x, t < s.x 0) : ∀ m : Nat, m + 1 ≤ s.n →
    ((List.range m).foldl (addPiece 0 s y) x).Pairwise (· < ·) ∧
    ∀ t, t ∈ (List.range m).foldl (addPiece 0 s y) x ↔
      t ∈ x ∨ (s.x 0 ≤ t ∧ t < s.x m ∧ eval s t = y) := by
  intro m hm
  induction m with
  | zero =>
    refine ⟨hx, fun t => ?_⟩
    constructor
    · intro h; exact Or.inl h
    · rintro (h | ⟨h1, h2, _⟩)
      · exact h
      · exact absurd h2 (not_lt.2 h1)
  | succ m ih =>
    obtain ⟨ih1, ih2⟩ := ih (by omega)
    have hle : s.x 0 ≤ s.x m := f.incr.le (by omega) (by omega)
    have hmm : s.x m < s.x (m + 1) := f.incr m (by omega)
    rw [List.range_succ, List.foldl_append]
    simp only [List.foldl_cons, List.foldl_nil]
    set X := (List.range m).foldl (addPiece 0 s y) x with hX
    have hne : s.y m - y ≠ 0 ∨ s.b m ≠ 0 ∨ s.c m ≠ 0 ∨ s.d m ≠ 0 := by
      rcases hflat m (by omega) with h | h | h | h
      · exact Or.inl (sub_ne_zero.2 h)
      · exact Or.inr (Or.inl h)
      · exact Or.inr (Or.inr (Or.inl h))
      · exact Or.inr (Or.inr (Or.inr h))
    obtain ⟨hz1, hz2⟩ := C135_exact (s.y m - y) (s.b m) (s.c m) (s.d m) 1 hne
    have hbelow : ∀ t ∈ X, t < s.x m := by
      intro t ht
      rcases (ih2 t).1 ht with h | h
      · exact lt_of_lt_of_le (hx0 t h) hle
      · exact h.2.1
    have hadd : addPiece 0 s y X m = X ++ ((solveCubic 0 (s.y m - y) (s.b m) (s.c m) (s.d m) 1).filter
        fun r => 0 ≤ r ∧ r < s.x (m + 1) - s.x m).map fun r => s.x m + r := by
      unfold addPiece
      refine addRoots_exact s m _ X hz1 fun t ht r hr h0 h1 => ?_
      have := hbelow t ht
      linarith
    rw [hadd]
    refine ⟨?_, fun t => ?_⟩
    · rw [List.pairwise_append]
      refine ⟨ih1, ?_, ?_⟩
      · refine List.Pairwise.map _ (fun a b h => ?_) (hz1.filter _)
        exact add_lt_add_right h _
      · intro a ha b hb
        rw [List.mem_map] at hb
        obtain ⟨r, hr, rfl⟩ := hb
        rw [List.mem_filter] at hr
        have h0 := hr.2
        simp only [Bool.decide_and, Bool.and_eq_true, decide_eq_true_eq] at h0
        have := hbelow a ha
        linarith [h0.1]
    · rw [List.mem_append, ih2, List.mem_map]
      have hpiece : ∀ t, s.x m ≤ t → t < s.x (m + 1) →
          (t - s.x m ∈ solveCubic 0 (s.y m - y) (s.b m) (s.c m) (s.d m) 1 ↔ eval s t = y) := by
        intro t h1 h2
        rw [hz2, poly_horner, eval_piece s f m (by omega) t h1 h2.le]
      constructor
      · rintro ((h | ⟨h1, h2, h3⟩) | ⟨r, hr, rfl⟩)
        · exact Or.inl h
        · exact Or.inr ⟨h1, h2.trans hmm, h3⟩
        · rw [List.mem_filter] at hr
          have h0 := hr.2
          simp only [Bool.decide_and, Bool.and_eq_true, decide_eq_true_eq] at h0
          refine Or.inr ⟨by linarith [h0.1], by linarith [h0.2], ?_⟩
          rw [← hpiece _ (by linarith [h0.1]) (by linarith [h0.2])]
          simpa using hr.1
      · rintro (h | ⟨h1, h2, h3⟩)
        · exact Or.inl (Or.inl h)
        · by_cases h4 : t < s.x m
          · exact Or.inl (Or.inr ⟨h1, h4, h3⟩)
          · have h5 := not_lt.1 h4
            refine Or.inr ⟨t - s.x m, ?_, by ring⟩
            rw [List.mem_filter]
            refine ⟨(hpiece t h5 h2).2 h3, ?_⟩
            simp only [Bool.decide_and, Bool.and_eq_true, decide_eq_true_eq]
            exact ⟨by linarith, by linarith⟩

/-- **C135** with exact arithmetic, without extrapolation: `solve` finds exactly the solutions from
the first node to, but not at, the last one, in increasing order. -/
theorem C135_inside_partial (s : Spl ℝ) (f : Fits s) (y : ℝ) (hflat : NotFlat s y) :
    (solve 0 s y true).Pairwise (· < ·) ∧
    ∀ t, t ∈ solve 0 s y true ↔ s.x 0 ≤ t ∧ t < s.x (s.n - 1) ∧ eval s t = y := by
  have h := pieces_exact s f y hflat [] List.Pairwise.nil (by simp) (s.n - 1)
    (by have := f.two; omega)
  simp only [List.not_mem_nil, false_or] at h
  exact h

/-- **C135** with exact arithmetic, with extrapolation: `solve` finds exactly all solutions, in
increasing order. -/
theorem C135_everywhere_partial (s : Spl ℝ) (f : Fits s) (y : ℝ) (hflat : NotFlat s y)
    (hout : NotFlatOutside s y) :
    (solve 0 s y false).Pairwise (· < ·) ∧ ∀ t, t ∈ solve 0 s y false ↔ eval s t = y := by
  have hn := f.two
  obtain ⟨hl1, hl2⟩ := C135_exact (s.y 0 - y) (s.b 0) s.c0 0 1 (by
    rcases hout.1 with h | h | h
    · exact Or.inl (sub_ne_zero.2 h)
    · exact Or.inr (Or.inl h)
    · exact Or.inr (Or.inr (Or.inl h)))
  obtain ⟨hr1, hr2⟩ := C135_exact (s.y (s.n - 1) - y) (s.b (s.n - 1)) (s.c (s.n - 1)) 0 1 (by
    rcases hout.2 with h | h | h
    · exact Or.inl (sub_ne_zero.2 h)
    · exact Or.inr (Or.inl h)
    · exact Or.inr (Or.inr (Or.inl h)))
  have hL : (leftRoots 0 s y).Pairwise (· < ·) ∧
      ∀ t, t ∈ leftRoots 0 s y ↔ t < s.x 0 ∧ eval s t = y := by
    unfold leftRoots
    refine ⟨List.Pairwise.map _ (fun a b h => add_lt_add_right h _) (hl1.filter _), fun t => ?_⟩
    rw [List.mem_map]
    constructor
    · rintro ⟨r, hr, rfl⟩
      rw [List.mem_filter] at hr
      have h0 : r < 0 := by simpa using hr.2
      refine ⟨by linarith, ?_⟩
      rw [eval_left s f _ (by linarith)]
      have := (poly_horner _ _ _ _ _ _).1 ((hl2 r).1 hr.1)
      rw [← this]
      ring
    · rintro ⟨h1, h2⟩
      refine ⟨t - s.x 0, ?_, by ring⟩
      rw [List.mem_filter]
      refine ⟨(hl2 _).2 ((poly_horner _ _ _ _ _ _).2 ?_), by simpa using h1⟩
      rw [← h2, eval_left s f t h1.le]
      ring
  have hR : (rightRoots 0 s y).Pairwise (· < ·) ∧
      ∀ t, t ∈ rightRoots 0 s y ↔ s.x (s.n - 1) ≤ t ∧ eval s t = y := by
    unfold rightRoots
    refine ⟨List.Pairwise.map _ (fun a b h => add_lt_add_right h _) (hr1.filter _), fun t => ?_⟩
    rw [List.mem_map]
    constructor
    · rintro ⟨r, hr, rfl⟩
      rw [List.mem_filter] at hr
      have h0 : 0 ≤ r := by simpa using hr.2
      refine ⟨by linarith, ?_⟩
      rw [eval_right s f _ (by linarith)]
      have := (poly_horner _ _ _ _ _ _).1 ((hr2 r).1 hr.1)
      rw [← this]
      ring
    · rintro ⟨h1, h2⟩
      refine ⟨t - s.x (s.n - 1), ?_, by ring⟩
      rw [List.mem_filter]
      refine ⟨(hr2 _).2 ((poly_horner _ _ _ _ _ _).2 ?_), by simpa using h1⟩
      rw [← h2, eval_right s f t h1]
      ring
  obtain ⟨h1, h2⟩ := pieces_exact s f y hflat (leftRoots 0 s y) hL.1 (fun t ht => ((hL.2 t).1 ht).1)
    (s.n - 1) (by omega)
  have hle : s.x 0 ≤ s.x (s.n - 1) := f.incr.le (by omega) (by omega)
  have hsolve : solve 0 s y false =
      (List.range (s.n - 1)).foldl (addPiece 0 s y) (leftRoots 0 s y) ++ rightRoots 0 s y := rfl
  rw [hsolve]
  refine ⟨?_, fun t => ?_⟩
  · rw [List.pairwise_append]
    refine ⟨h1, hR.1, fun a ha b hb => ?_⟩
    have hb' := ((hR.2 b).1 hb).1
    rcases (h2 a).1 ha with h | h
    · exact lt_of_lt_of_le ((hL.2 a).1 h).1 (hle.trans hb')
    · exact lt_of_lt_of_le h.2.1 hb'
  · rw [List.mem_append, h2, hL.2, hR.2]
    constructor
    · rintro ((h | h) | h)
      · exact h.2
      · exact h.2.2
      · exact h.2
    · intro h
      by_cases a1 : t < s.x 0
      · exact Or.inl (Or.inl ⟨a1, h⟩)
      · by_cases a2 : t < s.x (s.n - 1)
        · exact Or.inl (Or.inr ⟨not_lt.1 a1, a2, h⟩)
        · exact Or.inr ⟨not_lt.1 a2, h⟩

/-- the straight line through (0, 0) and (1, 1) -/
noncomputable def line01 : Spl ℝ :=
  { fresh ℝ with
    n := 2, x := fun i => i, y := fun i => i, b := fun _ => 1, type := .linear }

theorem line01_fits : Fits line01 := by
  refine ⟨le_rfl, ?_, ?_, rfl⟩
  · intro i hi
    have : i = 0 := by simp [line01] at hi; omega
    subst this
    norm_num [line01]
  · intro i hi
    have : i = 0 := by simp [line01] at hi; omega
    subst this
    norm_num [line01, fresh]

/-- the hypotheses of the two theorems hold -/
example : Fits line01 ∧ NotFlat line01 1 ∧ NotFlatOutside line01 1 :=
  ⟨line01_fits, fun _ _ => Or.inr (Or.inl (by norm_num [line01])),
    Or.inr (Or.inl (by norm_num [line01])), Or.inr (Or.inl (by norm_num [line01]))⟩

/-- **C135** without extrapolation a solution at the last node is missed: the line through (0, 0)
and (1, 1) takes the value 1 at 1, but no solution is found. -/
theorem C135_last_node_fails : ∃ s : Spl ℝ, Fits s ∧ NotFlat s 1 ∧ eval s (s.x (s.n - 1)) = 1 ∧
    solve 0 s 1 true = [] := by
  have hfl : NotFlat line01 1 := fun _ _ => Or.inr (Or.inl (by norm_num [line01]))
  refine ⟨line01, line01_fits, hfl, ?_, ?_⟩
  · rw [eval_right line01 line01_fits _ le_rfl]
    norm_num [line01]
  · obtain ⟨_, h⟩ := C135_inside_partial line01 line01_fits 1 hfl
    rw [List.eq_nil_iff_forall_not_mem]
    intro t ht
    obtain ⟨h1, h2, h3⟩ := (h t).1 ht
    rw [eval_piece line01 line01_fits 0 (by norm_num [line01]) t h1 h2.le] at h3
    simp [line01, fresh] at h2 h3
    linarith

end Verif.Spline.Roots
