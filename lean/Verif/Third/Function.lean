import Verif.Third.Trace
import Verif.Third.Model
import Verif.Weinberg.Function
import Verif.Potential.LoopFunLemmas

/-!
# Third derivative of the Coleman-Weinberg function, and the loop function of three masses
-/

namespace Verif.Weinberg

open Filter Topology
open Spec (cw)

noncomputable section

/-- The third derivative of `cw`. -/
def cw3 (t x : ℝ) : ℝ := if |x| < t then 0 else 1 / (32 * Real.pi ^ 2) * x⁻¹

theorem hasDerivAt_cw2 {t x : ℝ} (ht : 0 < t) (hx : |x| ≠ t) (scale c : ℝ) :
    HasDerivAt (cw2 t scale c) (cw3 t x) x := by
  unfold cw3
  have : cw2 t scale c = fun y => if |y| < t then 0 else
      1 / (32 * Real.pi ^ 2) * (Real.log |y| - 2 * Real.log scale - c + 3 / 2) := rfl
  rw [this]
  refine hasDerivAt_cut hx fun h => ?_
  have hx0 : x ≠ 0 := by
    rintro rfl
    rw [abs_zero] at h
    exact absurd ht (not_lt.2 h.le)
  simp only [Real.log_abs]
  exact ((((Real.hasDerivAt_log hx0).sub_const (2 * Real.log scale)).sub_const c).add_const (3 / 2)).const_mul _

theorem Above.eventually1 {t x : ℝ} (ht : 0 < t) (h : Above t x) (scale c : ℝ) :
    ∀ᶠ y in 𝓝 x, HasDerivAt (cw1 t scale c) (cw2 t scale c y) y := by
  rcases h with rfl | h
  · filter_upwards [abs_lt_eventually (t := t) (x := 0) (by rwa [abs_zero])] with y hy
    exact hasDerivAt_cw1 ht hy.ne scale c
  · filter_upwards [lt_abs_eventually (t := t) (x := x) (by rwa [abs_of_pos (ht.trans h)])] with y hy
    exact hasDerivAt_cw1 ht hy.ne' scale c

section

variable {t : ℝ} (ht : 0 < t) (scale c : ℝ)
include ht

theorem cw1_zero : cw1 t scale c 0 = 0 := by rw [cw1, abs_zero, if_pos ht]

theorem cw2_zero : cw2 t scale c 0 = 0 := by rw [cw2, abs_zero, if_pos ht]

theorem cw3_zero : cw3 t 0 = 0 := by rw [cw3, abs_zero, if_pos ht]

variable {x : ℝ} (hx : t < x)
include hx

theorem cw1_pos : cw1 t scale c x =
    1 / (32 * Real.pi ^ 2) * x * (Verif.Potential.lg scale x - c + 1 / 2) := by
  rw [cw1, abs_of_pos (ht.trans hx), if_neg (not_lt.2 hx.le), Verif.Potential.lg_pos (ht.trans hx)]

theorem cw2_pos : cw2 t scale c x =
    1 / (32 * Real.pi ^ 2) * (Verif.Potential.lg scale x - c + 3 / 2) := by
  rw [cw2, abs_of_pos (ht.trans hx), if_neg (not_lt.2 hx.le), Verif.Potential.lg_pos (ht.trans hx)]

theorem cw3_pos : cw3 t x = 1 / (32 * Real.pi ^ 2) * x⁻¹ := by
  rw [cw3, abs_of_pos (ht.trans hx), if_neg (not_lt.2 hx.le)]

end

open Verif.Potential in
/-- The curvature of the derivative between three masses is the loop function of three masses. -/
theorem curve_branch {t a b d : ℝ} (ht : 0 < t) (ha : Above t a) (hb : Above t b) (hd : Above t d) (scale c : ℝ)
    (h : c = 3 / 2 ∨ (¬ (a = 0 ∧ b = 0) ∧ ¬ (a = 0 ∧ d = 0) ∧ ¬ (b = 0 ∧ d = 0))) :
    triBranch scale a b d = .ok (32 * Real.pi ^ 2 *
      curve1 (cw1 t scale c) (cw2 t scale c) (cw3 t) a b d) := by
  have pi0 : Real.pi ≠ 0 := Real.pi_ne_zero
  unfold curve1 side1 slope1 slope
  rcases eq_or_ne a b with rfl | hab
  · rw [if_pos rfl]
    rcases eq_or_ne a d with rfl | had
    · rw [if_pos rfl]
      rcases ha with rfl | ha
      · rw [tri_000, cw3_zero ht]; simp
      · have pa := ht.trans ha
        rw [tri_aaa _ _ pa, cw3_pos ht ha]
        congr 1
        field_simp
    · rw [if_neg had, if_neg had]
      rcases ha with rfl | ha
      · have hd : t < d := hd.resolve_left had.symm
        have pd := ht.trans hd
        rw [tri_00c _ _ pd, cw1_zero ht, cw2_zero ht, cw1_pos ht _ _ hd]
        rcases h with rfl | h
        · congr 1
          field_simp
          ring
        · simp at h
      · have pa := ht.trans ha
        rcases hd with rfl | hd
        · rw [tri_aa0 _ _ pa, cw1_zero ht, cw2_pos ht _ _ ha, cw1_pos ht _ _ ha]
          congr 1
          field_simp
          ring
        · have pd := ht.trans hd
          have e : a - d ≠ 0 := sub_ne_zero.2 had
          rw [tri_aac _ _ _ pa pd had, cw2_pos ht _ _ ha, cw1_pos ht _ _ ha, cw1_pos ht _ _ hd]
          congr 1
          field_simp
          ring
  · rw [if_neg hab]
    rcases eq_or_ne a d with rfl | had
    · rw [if_pos rfl, if_neg hab.symm]
      rcases ha with rfl | ha
      · have hb : t < b := hb.resolve_left hab.symm
        have pb := ht.trans hb
        rw [tri_0b0 _ _ pb, cw1_zero ht, cw2_zero ht, cw1_pos ht _ _ hb]
        rcases h with rfl | h
        · congr 1
          field_simp
          ring
        · simp at h
      · have pa := ht.trans ha
        rcases hb with rfl | hb
        · rw [tri_a0a _ _ pa, cw1_zero ht, cw2_pos ht _ _ ha, cw1_pos ht _ _ ha]
          congr 1
          field_simp
          ring
        · have pb := ht.trans hb
          have e : a - b ≠ 0 := sub_ne_zero.2 hab
          have e' : b - a ≠ 0 := sub_ne_zero.2 hab.symm
          rw [tri_aba _ _ _ pa pb hab, cw2_pos ht _ _ ha, cw1_pos ht _ _ ha, cw1_pos ht _ _ hb]
          congr 1
          field_simp
          ring
    · rw [if_neg had]
      rcases eq_or_ne b d with rfl | hbd
      · rw [if_pos rfl]
        rcases hb with rfl | hb
        · have ha : t < a := ha.resolve_left hab
          have pa := ht.trans ha
          rw [tri_a00 _ _ pa, cw1_zero ht, cw2_zero ht, cw1_pos ht _ _ ha]
          rcases h with rfl | h
          · congr 1
            field_simp
            ring
          · simp at h
        · have pb := ht.trans hb
          rcases ha with rfl | ha
          · rw [tri_0bb _ _ pb, cw1_zero ht, cw2_pos ht _ _ hb, cw1_pos ht _ _ hb]
            congr 1
            field_simp
            ring
          · have pa := ht.trans ha
            have e : a - b ≠ 0 := sub_ne_zero.2 hab
            have e' : b - a ≠ 0 := sub_ne_zero.2 hab.symm
            rw [tri_abb _ _ _ pa pb hab, cw2_pos ht _ _ hb, cw1_pos ht _ _ ha, cw1_pos ht _ _ hb]
            congr 1
            field_simp
            ring
      · rw [if_neg hbd]
        have f : ∀ x, Above t x → cw1 t scale c x =
            1 / (32 * Real.pi ^ 2) * (Spec.g scale x + x * (- c + 1 / 2)) := fun x hx => by
          rcases hx with rfl | hx
          · rw [cw1_zero ht, Spec.g]; ring
          · rw [cw1_pos ht _ _ hx, lg_pos (ht.trans hx), Spec.g]; ring
        rw [tri_abc _ _ _ _ (ha.nonneg ht) (hb.nonneg ht) (hd.nonneg ht) hab had hbd, f a ha, f b hb, f d hd,
          Spec.loop3]
        generalize Spec.g scale a = ga
        generalize Spec.g scale b = gb
        generalize Spec.g scale d = gd
        have e1 : a - b ≠ 0 := sub_ne_zero.2 hab
        have e2 : a - d ≠ 0 := sub_ne_zero.2 had
        have e3 : b - d ≠ 0 := sub_ne_zero.2 hbd
        have e1' : b - a ≠ 0 := sub_ne_zero.2 hab.symm
        have e2' : d - a ≠ 0 := sub_ne_zero.2 had.symm
        have e3' : d - b ≠ 0 := sub_ne_zero.2 hbd.symm
        congr 1
        rw [show b - a = -(a - b) by ring, show d - a = -(a - d) by ring, show d - b = -(b - d) by ring]
        field_simp
        ring

/-- Two squared masses are equal or can be told apart by the program. -/
def Told (x y : ℝ) : Prop := x = y ∨ 1 / 10 ^ 5 < |x - y|

theorem fbaseTri_told {t a b d : ℝ} (ht : 1 / 10 ^ 8 ≤ t) (ha : Above t a) (hb : Above t b) (hd : Above t d)
    (hab : Told a b) (had : Told a d) (hbd : Told b d) (scale : ℝ) :
    Verif.Potential.fbaseTri scale a b d = Verif.Potential.triBranch scale a b d := by
  have le : (1 : ℝ) / 10 ^ 8 ≤ 1 / 10 ^ 5 := by norm_num
  have h0 : ∀ x, Above t x → x = 0 ∨ 1 / 10 ^ 8 ≤ x := fun x hx => hx.imp id fun h => ht.trans h.le
  have h1 : ∀ x y, Told x y → x = y ∨ 1 / 10 ^ 8 ≤ |x - y| := fun x y h => h.imp id fun h => le.trans h.le
  unfold Verif.Potential.fbaseTri
  simp only [Verif.Potential.zeroed_of (h0 _ ha), Verif.Potential.zeroed_of (h0 _ hb),
    Verif.Potential.zeroed_of (h0 _ hd), Verif.Potential.merged_of (h1 _ _ hab),
    Verif.Potential.merged_of (h1 _ _ had), Verif.Potential.merged_of (h1 _ _ hbd)]

theorem curve_eq {t a b d : ℝ} (ht : 1 / 10 ^ 8 ≤ t) (ha : Above t a) (hb : Above t b) (hd : Above t d)
    (hab : Told a b) (had : Told a d) (hbd : Told b d) (scale c : ℝ)
    (h : c = 3 / 2 ∨ (¬ (a = 0 ∧ b = 0) ∧ ¬ (a = 0 ∧ d = 0) ∧ ¬ (b = 0 ∧ d = 0))) :
    curve1 (cw1 t scale c) (cw2 t scale c) (cw3 t) a b d = 1 / (32 * Real.pi ^ 2) * triValue scale a b d := by
  have pi0 : Real.pi ≠ 0 := Real.pi_ne_zero
  have t0 : 0 < t := lt_of_lt_of_le (by norm_num) ht
  rw [triValue, fbaseTri_told ht ha hb hd hab had hbd, curve_branch t0 ha hb hd scale c h]
  field_simp

theorem fbaseTri_ok {t a b d : ℝ} (ht : 1 / 10 ^ 8 ≤ t) (ha : Above t a) (hb : Above t b) (hd : Above t d)
    (hab : Told a b) (had : Told a d) (hbd : Told b d) (scale : ℝ) :
    Verif.Potential.fbaseTri scale a b d ≠ .err .runtime := by
  have t0 : 0 < t := lt_of_lt_of_le (by norm_num) ht
  rw [fbaseTri_told ht ha hb hd hab had hbd, curve_branch t0 ha hb hd scale (3 / 2) (Or.inl rfl)]
  exact fun h => by cases h

end

end Verif.Weinberg
