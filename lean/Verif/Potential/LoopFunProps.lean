import Verif.Potential.LoopFunLemmas

/-!
# Symmetry and limits of the loop functions (C36)
-/

namespace Verif.Potential

open Outcome Filter Topology

theorem ne_near {a c : ℝ} (h : a ≠ c) : ∀ᶠ x in 𝓝[≠] a, x ≠ c :=
  Filter.Eventually.filter_mono nhdsWithin_le_nhds (isOpen_ne.mem_nhds h)

/-! ## Two masses -/

/-- Two different masses: the function is the divided difference. -/
theorem C36_two_value (s a b : ℝ) (ha : 0 ≤ a) (hb : 0 ≤ b) (h : 1 / 10 ^ 5 < |a - b|) :
    fbase s a b = .fin (Spec.loop2 s a b) := by
  have hne : a ≠ b := by rintro rfl; simp at h; linarith [show (0 : ℝ) < 1 / 10 ^ 5 by positivity]
  have k1 := sub_ne_zero.2 hne
  have k2 := sub_ne_zero.2 hne.symm
  unfold fbase
  rw [if_neg (by rintro ⟨rfl, rfl⟩; exact hne rfl), if_pos h]
  unfold Spec.loop2
  simp only [g_eq]
  by_cases h0 : a = 0
  · subst h0
    simp [fk, hb.not_gt, lg_zero]
    field_simp
  · by_cases h1 : b = 0
    · subst h1
      simp [fk, ha.not_gt, h0, lg_zero]
    · simp [fk, ha.not_gt, hb.not_gt, h0, h1]
      field_simp
      ring

/-- Two equal masses: the limit. -/
theorem C36_two_limit (s a : ℝ) (ha : 0 < a) :
    ∃ v, fbase s a a = .fin v ∧ Tendsto (fun x => Spec.loop2 s x a) (𝓝[≠] a) (𝓝 v) := by
  refine ⟨lg s a + 1, ?_, ?_⟩
  · simp [fbase, fk, ha.ne', ha.not_gt, add_comm]
  · have h := slope_lim (h := fun x => Spec.g s x - Spec.g s a) (by simp)
      ((g_deriv s ha).sub_const _)
    refine h.congr' ?_
    filter_upwards [self_mem_nhdsWithin] with x hx
    have k1 : x - a ≠ 0 := sub_ne_zero.2 hx
    have k2 : a - x ≠ 0 := sub_ne_zero.2 (Ne.symm hx)
    unfold Spec.loop2
    field_simp
    ring

/-- Symmetric for masses that are equal or further apart than the threshold. -/
theorem C36_two_symmetric_partial (s a b : ℝ) (ha : 0 ≤ a) (hb : 0 ≤ b)
    (h : a = b ∨ 1 / 10 ^ 5 < |a - b|) : fbase s a b = fbase s b a := by
  rcases h with rfl | h
  · rfl
  · rw [C36_two_value s a b ha hb h, C36_two_value s b a hb ha (by rwa [abs_sub_comm])]
    unfold Spec.loop2
    rw [add_comm]

/-- The full symmetry fails: with a vanishing mass and one below the threshold (the squared mass of
the electron is `2.6e-7`) the order decides whether the logarithm is included. -/
theorem C36_two_asymmetric (s b : ℝ) (hb : 0 < b) (hb' : b ≤ 1 / 10 ^ 5)
    (hs : Real.log b ≠ 2 * Real.log s) :
    fbase s 0 b = .fin 1 ∧ fbase s b 0 = .fin (1 + (Real.log b - 2 * Real.log s)) ∧
      fbase s 0 b ≠ fbase s b 0 := by
  have h1 : fbase s 0 b = .fin 1 := by
    simp only [fbase, fk, hb.ne', abs_of_pos hb, not_lt.2 hb', and_false, if_false, zero_sub, abs_neg]
    simp [lg_zero]
  have h2 : fbase s b 0 = .fin (1 + (Real.log b - 2 * Real.log s)) := by
    simp only [fbase, fk, hb.ne', abs_of_pos hb, not_lt.2 hb', false_and, if_false, sub_zero]
    simp [lg_pos hb, hb.not_gt]
  refine ⟨h1, h2, ?_⟩
  rw [h1, h2]
  intro h
  injection h with h
  apply hs
  linarith

example : ∃ b : ℝ, 0 < b ∧ b ≤ 1 / 10 ^ 5 ∧ Real.log b ≠ 2 * Real.log 1 := by
  refine ⟨1 / 10 ^ 6, by positivity, by norm_num, ?_⟩
  rw [Real.log_one, mul_zero]
  exact (Real.log_neg (by positivity) (by norm_num)).ne

/-! ## Three masses -/

/-- Symmetric under all permutations of masses that the code can tell apart. -/
theorem C36_three_symmetric_partial (s : ℝ) (m : Fin 3 → ℝ) (σ : Equiv.Perm (Fin 3))
    (h : Spec.Separated (1 / 10 ^ 8) m) :
    fbaseTri s (m (σ 0)) (m (σ 1)) (m (σ 2)) = fbaseTri s (m 0) (m 1) (m 2) := by
  refine perm_of_swaps (n := 2) (Spec.Separated (1 / 10 ^ 8)) (fun m σ => separated_perm σ)
    (fun m => fbaseTri s (m 0) (m 1) (m 2)) ?_ σ m h
  intro i m hm
  have hsep : ∀ m : Fin 3 → ℝ, Spec.Separated (1 / 10 ^ 8) m →
      fbaseTri s (m 0) (m 1) (m 2) = triBranch s (m 0) (m 1) (m 2) := by
    intro m hm
    apply fbaseTri_of
    have e : ![m 0, m 1, m 2] = m := by funext i; fin_cases i <;> rfl
    rwa [e]
  have hn := separated_nonneg (by positivity) hm
  rw [hsep _ (separated_perm _ hm), hsep _ hm]
  match i with
  | 0 => exact tri_swap12 s _ _ _ (hn 0) (hn 1) (hn 2)
  | 1 => exact tri_swap23 s _ _ _ (hn 0) (hn 1) (hn 2)

/-- Three different masses, one of which may be zero: the divided difference. -/
theorem C36_three_value (s a b c : ℝ) (h : Spec.Separated (1 / 10 ^ 8) ![a, b, c]) (hab : a ≠ b)
    (hac : a ≠ c) (hbc : b ≠ c) : fbaseTri s a b c = .ok (Spec.loop3 s a b c) := by
  have hn := separated_nonneg (by positivity) h
  rw [fbaseTri_of h, tri_abc s a b c (hn 0) (hn 1) (hn 2) hab hac hbc]

theorem pair3 (s a c : ℝ) (ha : 0 < a) (hac : a ≠ c) :
    Spec.Pair3 s a c (((lg s a + 1) * (a - c) - (Spec.g s a - Spec.g s c)) / ((a - c) * (a - c))) := by
  have hd : HasDerivAt (fun x => (Spec.g s x - Spec.g s c) * (a - c) -
      (Spec.g s a - Spec.g s c) * (x - c))
      ((lg s a + 1) * (a - c) - (Spec.g s a - Spec.g s c) * 1) a :=
    (((g_deriv s ha).sub_const _).mul_const _).fun_sub
      (((hasDerivAt_id' a).sub_const c).const_mul _)
  have k1 : a - c ≠ 0 := sub_ne_zero.2 hac
  refine lim_of (E := fun x => (x - c) * (a - c)) (a := a) ?_ nhdsWithin_le_nhds ?_ (mul_ne_zero k1 k1) ?_
    (Q := fun x => ((Spec.g s x - Spec.g s c) * (a - c) - (Spec.g s a - Spec.g s c) * (x - c)) / (x - a))
  · have := slope_lim (h := fun x => (Spec.g s x - Spec.g s c) * (a - c) -
      (Spec.g s a - Spec.g s c) * (x - c)) (by simp) hd
    simpa using this
  · fun_prop
  · have hne : ∀ᶠ x in 𝓝[≠] a, x ≠ c :=
      ne_near hac
    filter_upwards [self_mem_nhdsWithin, hne] with x hx hxc
    have k2 : x - a ≠ 0 := sub_ne_zero.2 hx
    have k3 : a - x ≠ 0 := sub_ne_zero.2 (Ne.symm hx)
    have k4 : x - c ≠ 0 := sub_ne_zero.2 hxc
    have k5 : c - x ≠ 0 := sub_ne_zero.2 (Ne.symm hxc)
    have k6 : c - a ≠ 0 := sub_ne_zero.2 (Ne.symm hac)
    unfold Spec.loop3
    field_simp
    ring

/-- Two equal masses and a different one (which may be zero): the limit.  The other orders follow
from the symmetry. -/
theorem C36_three_pair (s a c : ℝ) (h : Spec.Separated (1 / 10 ^ 8) ![a, a, c]) (hac : a ≠ c)
    (ha0 : a ≠ 0) : ∃ v, fbaseTri s a a c = .ok v ∧ Spec.Pair3 s a c v := by
  have hn := separated_nonneg (by positivity) h
  have ha : 0 < a := lt_of_le_of_ne (hn 0) ha0.symm
  have k1 : a - c ≠ 0 := sub_ne_zero.2 hac
  refine ⟨_, ?_, pair3 s a c ha hac⟩
  rw [fbaseTri_of h]
  obtain rfl | hc := (show 0 ≤ c from hn 2).eq_or_lt
  · rw [tri_aa0 s a ha]
    simp only [g_eq]
    congr 1
    field_simp
    ring
  · rw [tri_aac s a c ha hc hac]
    simp only [g_eq]
    congr 1
    field_simp
    ring

/-- Three equal masses: the limit. -/
theorem C36_three_equal (s a : ℝ) (ha : 1 / 10 ^ 8 ≤ a) :
    ∃ v, fbaseTri s a a a = .ok v ∧ Spec.Triple3 s a v := by
  have ha' : 0 < a := lt_of_lt_of_le (by positivity) ha
  refine ⟨1 / (2 * a), ?_, ?_⟩
  · rw [fbaseTri_of ⟨by intro i; fin_cases i <;> exact Or.inr ha,
      by intro i j; fin_cases i <;> fin_cases j <;> exact Or.inl rfl⟩, tri_aaa s a ha']
  · refine ⟨_, fun y hy hya => pair3 s a y ha' hya.symm, ?_⟩
    have hN : Tendsto (fun x => ((a - x) + x * (Real.log x - Real.log a)) / (x - a) ^ 2) (𝓝[≠] a)
        (𝓝 (a⁻¹ / 2)) := by
      refine taylor2 (h' := fun x => Real.log x - Real.log a) (by simp) (by simp) ?_ ?_
      · filter_upwards [lt_mem_nhds ha'] with x hx
        have h := ((hasDerivAt_id' x).const_sub a).fun_add ((hasDerivAt_id' x).fun_mul
          ((Real.hasDerivAt_log hx.ne').sub_const (Real.log a)))
        refine h.congr_deriv ?_
        field_simp
        ring
      · exact (Real.hasDerivAt_log ha'.ne').sub_const _
    rw [show a⁻¹ / 2 = 1 / (2 * a) by field_simp] at hN
    refine hN.congr' ?_
    filter_upwards [self_mem_nhdsWithin, (lt_mem_nhds ha').filter_mono nhdsWithin_le_nhds] with x hx h0
    have k2 : x - a ≠ 0 := sub_ne_zero.2 hx
    have k3 : a - x ≠ 0 := sub_ne_zero.2 (Ne.symm hx)
    simp only [g_eq, lg_pos ha', lg_pos h0]
    field_simp
    ring

/-- A vanishing mass and two different ones: the limit. -/
theorem C36_three_zero (s b c : ℝ) (h : Spec.Separated (1 / 10 ^ 8) ![0, b, c]) (hb : b ≠ 0)
    (hc : c ≠ 0) (hbc : b ≠ c) :
    ∃ v, fbaseTri s 0 b c = .ok v ∧ Tendsto (fun x => Spec.loop3 s x b c) (𝓝[>] 0) (𝓝 v) := by
  refine ⟨_, C36_three_value s 0 b c h hb.symm hc.symm hbc, ?_⟩
  have hg := g_continuous s
  have hcont : ContinuousAt (fun x => Spec.loop3 s x b c) 0 := by
    unfold Spec.loop3
    have k1 : (0 - b) * (0 - c) ≠ 0 := by simp [hb, hc]
    have k2 : (b - 0) * (b - c) ≠ 0 := by simp [hb, sub_ne_zero.2 hbc]
    have k3 : (c - 0) * (c - b) ≠ 0 := by simp [hc, sub_ne_zero.2 hbc.symm]
    refine ((hg.continuousAt.div (g := fun x => (x - b) * (x - c)) ?_ k1).add
      (continuousAt_const.div (g := fun x => (b - x) * (b - c)) ?_ k2)).add
      (continuousAt_const.div (g := fun x => (c - x) * (c - b)) ?_ k3) <;> fun_prop
  exact hcont.tendsto.mono_left nhdsWithin_le_nhds

theorem mul_log_zero (s : ℝ) : Tendsto (fun x => x * (Real.log x - 2 * Real.log s)) (𝓝[>] 0) (𝓝 0) := by
  have := (g_continuous s).tendsto 0
  simp only [Spec.g, zero_mul] at this
  exact this.mono_left nhdsWithin_le_nhds

/-- Two vanishing masses: the limit after the term `-log(x / s²) / a`, which diverges, has been
removed. -/
theorem C36_three_two_zero (s a : ℝ) (ha : 1 / 10 ^ 8 ≤ a) :
    ∃ v, fbaseTri s a 0 0 = .ok v ∧ ∃ q : ℝ → ℝ, (∀ x, 0 < x → x ≠ a → Spec.Pair3 s x a (q x)) ∧
      Tendsto (fun x => q x + (Real.log x - 2 * Real.log s) / a) (𝓝[>] 0) (𝓝 v) := by
  have ha' : 0 < a := lt_of_lt_of_le (by positivity) ha
  refine ⟨(lg s a - 1) / a, ?_, _, fun x hx hxa => pair3 s x a hx hxa, ?_⟩
  · rw [fbaseTri_of, tri_a00 s a ha']
    refine ⟨by intro i; fin_cases i <;> simp [-one_div, ha], ?_⟩
    have : (1 : ℝ) / 10 ^ 8 ≤ |a| := ha.trans (le_abs_self a)
    intro i j; fin_cases i <;> fin_cases j <;> simp [-one_div, this]
  · have h1 : Tendsto (fun x : ℝ => (x - a + a * lg s a) / (x - a) ^ 2) (𝓝[>] 0)
        (𝓝 ((0 - a + a * lg s a) / (0 - a) ^ 2)) := by
      have : ContinuousAt (fun x : ℝ => (x - a + a * lg s a) / (x - a) ^ 2) 0 :=
        ContinuousAt.div (by fun_prop) (by fun_prop) (by simp [ha'.ne'])
      exact this.tendsto.mono_left nhdsWithin_le_nhds
    have h2 : Tendsto (fun x : ℝ => (x - 2 * a) / (a * (x - a) ^ 2)) (𝓝[>] 0)
        (𝓝 ((0 - 2 * a) / (a * (0 - a) ^ 2))) := by
      have : ContinuousAt (fun x : ℝ => (x - 2 * a) / (a * (x - a) ^ 2)) 0 :=
        ContinuousAt.div (by fun_prop) (by fun_prop) (by simp [ha'.ne'])
      exact this.tendsto.mono_left nhdsWithin_le_nhds
    have h3 := h1.add ((mul_log_zero s).mul h2)
    have e : (0 - a + a * lg s a) / (0 - a) ^ 2 + 0 * ((0 - 2 * a) / (a * (0 - a) ^ 2)) =
        (lg s a - 1) / a := by
      rw [zero_sub, neg_sq, zero_mul, add_zero]; field_simp; ring
    rw [e] at h3
    refine h3.congr' ?_
    have hlt : ∀ᶠ x in 𝓝[>] (0 : ℝ), x < a :=
      (gt_mem_nhds ha' : ∀ᶠ x in 𝓝 (0 : ℝ), x < a).filter_mono nhdsWithin_le_nhds
    filter_upwards [self_mem_nhdsWithin, hlt] with x hx hxa
    have hx' : 0 < x := hx
    have k2 : x - a ≠ 0 := sub_ne_zero.2 hxa.ne
    simp only [g_eq, lg_pos hx']
    field_simp
    ring

/-- For masses closer than the threshold the result depends on their order: the function with a pair
of masses next to each other and a zero takes the second one. -/
theorem C36_three_asymmetric (s a b : ℝ) (ha : 1 / 10 ^ 8 ≤ a) (hb : 1 / 10 ^ 8 ≤ b) (hne : a ≠ b)
    (h : |a - b| < 1 / 10 ^ 8) :
    fbaseTri s a b 0 = .ok (1 / b) ∧ fbaseTri s b a 0 = .ok (1 / a) ∧
      fbaseTri s a b 0 ≠ fbaseTri s b a 0 := by
  have ht : (0 : ℝ) < 1 / 10 ^ 8 := by positivity
  have key : ∀ a b : ℝ, 1 / 10 ^ 8 ≤ a → 1 / 10 ^ 8 ≤ b → |a - b| < 1 / 10 ^ 8 →
      fbaseTri s a b 0 = .ok (1 / b) := by
    intro a b ha hb h
    have hb' : 0 < b := ht.trans_le hb
    have hz : zeroed (1 / 10 ^ 8) 0 = 0 := zeroed_of (Or.inl rfl)
    have hm : merged (1 / 10 ^ 8) a b = b := if_pos h
    have hm2 : merged (1 / 10 ^ 8) b 0 = b := merged_of (Or.inr (by
      rw [sub_zero]; exact hb.trans (le_abs_self b)))
    unfold fbaseTri
    simp only [zeroed_of (Or.inr ha), zeroed_of (Or.inr hb), hz, hm, hm2]
    exact tri_aa0 s b hb'
  have h1 := key a b ha hb h
  have h2 := key b a hb ha (by rwa [abs_sub_comm])
  refine ⟨h1, h2, ?_⟩
  rw [h1, h2]
  intro he
  injection he with he
  apply hne
  have ha' : a ≠ 0 := (ht.trans_le ha).ne'
  have hb' : b ≠ 0 := (ht.trans_le hb).ne'
  field_simp at he
  exact he

example : ∃ a b : ℝ, 1 / 10 ^ 8 ≤ a ∧ 1 / 10 ^ 8 ≤ b ∧ a ≠ b ∧ |a - b| < 1 / 10 ^ 8 :=
  ⟨3 / (2 * 10 ^ 8), 1 / 10 ^ 8, by norm_num, by norm_num, by norm_num, by
    rw [abs_of_pos (by norm_num)]; norm_num⟩

/-- Negative squared masses are rejected with an exception unless the logarithms of the branch do
not need them. -/
theorem C36_three_negative (s a b c : ℝ) (ha : a ≤ -(1 / 10 ^ 8)) (hb : 1 / 10 ^ 8 ≤ b)
    (hc : b + 1 / 10 ^ 8 ≤ c) : fbaseTri s a b c = .err .runtime := by
  have ht : (0 : ℝ) < 1 / 10 ^ 8 := by positivity
  generalize hgt : (1 : ℝ) / 10 ^ 8 = t at *
  have ha' : zeroed t a = a := by
    unfold zeroed; rw [if_neg (by rw [abs_of_neg (by linarith)]; linarith)]
  have hab : merged t a b = a :=
    merged_of (Or.inr (by rw [abs_of_neg (by linarith)]; linarith))
  have hac : merged t a c = a :=
    merged_of (Or.inr (by rw [abs_of_neg (by linarith)]; linarith))
  have hbc : merged t b c = b :=
    merged_of (Or.inr (by rw [abs_of_neg (by linarith)]; linarith))
  unfold fbaseTri
  simp only [hgt]
  simp only [ha', zeroed_of (Or.inr hb), zeroed_of (Or.inr (show t ≤ c by linarith)), hab, hac, hbc]
  have h1 : a ≠ 0 := by linarith
  have h2 : b ≠ 0 := by linarith
  have h3 : c ≠ 0 := by linarith
  have h4 : a ≠ b := by linarith
  have h5 : a ≠ c := by linarith
  have h6 : b ≠ c := by linarith
  have h7 : a < 0 := by linarith
  simp [triBranch, ck, h1, h2, h3, h4, h5, h6, h7]

/-! ## Four masses -/

/-- Symmetric under all permutations of masses that the code can tell apart. -/
theorem C36_four_symmetric_partial (s : ℝ) (m : Fin 4 → ℝ) (σ : Equiv.Perm (Fin 4))
    (h : Spec.Separated (1 / 10 ^ 6) m) :
    fbaseFour s (m (σ 0)) (m (σ 1)) (m (σ 2)) (m (σ 3)) =
      fbaseFour s (m 0) (m 1) (m 2) (m 3) := by
  refine perm_of_swaps (n := 3) (Spec.Separated (1 / 10 ^ 6)) (fun m σ => separated_perm σ)
    (fun m => fbaseFour s (m 0) (m 1) (m 2) (m 3)) ?_ σ m h
  intro i m hm
  have hsep : ∀ m : Fin 4 → ℝ, Spec.Separated (1 / 10 ^ 6) m →
      fbaseFour s (m 0) (m 1) (m 2) (m 3) = fourBranch s (m 0) (m 1) (m 2) (m 3) := by
    intro m hm
    apply fbaseFour_of
    have e : ![m 0, m 1, m 2, m 3] = m := by funext i; fin_cases i <;> rfl
    rwa [e]
  have hn := separated_nonneg (by positivity) hm
  rw [hsep _ (separated_perm _ hm), hsep _ hm]
  match i with
  | 0 => exact (swap_ab s _ _ _ _ (hn 0) (hn 1) (hn 2) (hn 3)).symm
  | 1 => exact (swap_bc s _ _ _ _ (hn 0) (hn 1) (hn 2) (hn 3)).symm
  | 2 => exact (swap_cd s _ _ _ _ (hn 0) (hn 1) (hn 2) (hn 3)).symm

/-- Four different masses, none of them zero: the divided difference. -/
theorem C36_four_value (s a b c d : ℝ) (h : Spec.Separated (1 / 10 ^ 6) ![a, b, c, d])
    (h0 : a ≠ 0 ∧ b ≠ 0 ∧ c ≠ 0 ∧ d ≠ 0) (hab : a ≠ b) (hac : a ≠ c) (had : a ≠ d) (hbc : b ≠ c)
    (hbd : b ≠ d) (hcd : c ≠ d) : fbaseFour s a b c d = .ok (Spec.loop4 s a b c d) := by
  have hn := separated_nonneg (by positivity) h
  rw [fbaseFour_of h, four_abcd s a b c d (lt_of_le_of_ne (hn 0) h0.1.symm)
    (lt_of_le_of_ne (hn 1) h0.2.1.symm) (lt_of_le_of_ne (hn 2) h0.2.2.1.symm)
    (lt_of_le_of_ne (hn 3) h0.2.2.2.symm) hab hac had hbc hbd hcd]
  simp only [Spec.loop4, g_eq]

theorem pair4 (s a c d : ℝ) (ha : 0 < a) (hac : a ≠ c) (had : a ≠ d) (hcd : c ≠ d) :
    Spec.Pair4 s a c d
      ((lg s a + 1) / ((a - c) * (a - d)) -
        Spec.g s a * (2 * a - c - d) / ((a - c) * (a - d)) ^ 2 +
        Spec.g s c / ((a - c) ^ 2 * (c - d)) - Spec.g s d / ((a - d) ^ 2 * (c - d))) := by
  have k1 : a - c ≠ 0 := sub_ne_zero.2 hac
  have k2 : a - d ≠ 0 := sub_ne_zero.2 had
  have k3 : c - d ≠ 0 := sub_ne_zero.2 hcd
  have k4 : d - c ≠ 0 := sub_ne_zero.2 hcd.symm
  have k5 : c - a ≠ 0 := sub_ne_zero.2 hac.symm
  have k6 : d - a ≠ 0 := sub_ne_zero.2 had.symm
  have hd : HasDerivAt (fun x => Spec.loop3 s x c d - Spec.loop3 s a c d)
      ((lg s a + 1) / ((a - c) * (a - d)) -
        Spec.g s a * (2 * a - c - d) / ((a - c) * (a - d)) ^ 2 +
        Spec.g s c / ((a - c) ^ 2 * (c - d)) - Spec.g s d / ((a - d) ^ 2 * (c - d))) a := by
    unfold Spec.loop3
    have e1 : HasDerivAt (fun x => (x - c) * (x - d)) (1 * (a - d) + (a - c) * 1) a :=
      ((hasDerivAt_id' a).sub_const c).fun_mul ((hasDerivAt_id' a).sub_const d)
    have d1 := (g_deriv s ha).fun_div e1 (mul_ne_zero k1 k2)
    have e2 : HasDerivAt (fun x => (c - x) * (c - d)) ((-1) * (c - d)) a :=
      ((hasDerivAt_id' a).const_sub c).mul_const _
    have d2 := (hasDerivAt_const a (Spec.g s c)).fun_div e2 (mul_ne_zero k5 k3)
    have e3 : HasDerivAt (fun x => (d - x) * (d - c)) ((-1) * (d - c)) a :=
      ((hasDerivAt_id' a).const_sub d).mul_const _
    have d3 := (hasDerivAt_const a (Spec.g s d)).fun_div e3 (mul_ne_zero k6 k4)
    refine (((d1.fun_add d2).fun_add d3).sub_const _).congr_deriv ?_
    field_simp
    ring
  refine (slope_lim (by simp) hd).congr' ?_
  have hne : ∀ᶠ x in 𝓝[≠] a, x ≠ c :=
    ne_near hac
  have hne' : ∀ᶠ x in 𝓝[≠] a, x ≠ d :=
    ne_near had
  filter_upwards [self_mem_nhdsWithin, hne, hne'] with x hx hxc hxd
  have j1 : x - a ≠ 0 := sub_ne_zero.2 hx
  have j2 : a - x ≠ 0 := sub_ne_zero.2 (Ne.symm hx)
  have j3 : x - c ≠ 0 := sub_ne_zero.2 hxc
  have j4 : c - x ≠ 0 := sub_ne_zero.2 (Ne.symm hxc)
  have j5 : x - d ≠ 0 := sub_ne_zero.2 hxd
  have j6 : d - x ≠ 0 := sub_ne_zero.2 (Ne.symm hxd)
  unfold Spec.loop3 Spec.loop4
  field_simp
  ring

/-- Two equal masses and two different ones, one of which may be zero: the limit. -/
theorem C36_four_pair (s a c d : ℝ) (h : Spec.Separated (1 / 10 ^ 6) ![a, a, c, d]) (ha0 : a ≠ 0)
    (hac : a ≠ c) (had : a ≠ d) (hcd : c ≠ d) :
    ∃ v, fbaseFour s a a c d = .ok v ∧ Spec.Pair4 s a c d v := by
  have hn := separated_nonneg (by positivity) h
  have ha : 0 < a := lt_of_le_of_ne (hn 0) ha0.symm
  have k1 : a - c ≠ 0 := sub_ne_zero.2 hac
  have k2 : a - d ≠ 0 := sub_ne_zero.2 had
  have k3 : c - d ≠ 0 := sub_ne_zero.2 hcd
  refine ⟨_, ?_, pair4 s a c d ha hac had hcd⟩
  rw [fbaseFour_of h]
  obtain rfl | hc := (show 0 ≤ c from hn 2).eq_or_lt
  · have hd : 0 < d := lt_of_le_of_ne (hn 3) hcd
    have hd' := hd.ne'
    rw [four_aa0d s a d ha hd had]
    simp only [g_eq]
    congr 1
    field_simp
    ring
  · obtain rfl | hd := (show 0 ≤ d from hn 3).eq_or_lt
    · have hc' := hc.ne'
      rw [four_aac0 s a c ha hc hac]
      simp only [g_eq]
      congr 1
      field_simp
      ring
    · rw [four_aacd s a c d ha hc hd hac had hcd]
      simp only [g_eq]
      congr 1
      field_simp
      ring

/-- Two pairs of equal masses: the limit. -/
theorem C36_four_pairs (s a c : ℝ) (h : Spec.Separated (1 / 10 ^ 6) ![a, a, c, c]) (ha0 : a ≠ 0)
    (hc0 : c ≠ 0) (hac : a ≠ c) :
    ∃ v, fbaseFour s a a c c = .ok v ∧ Spec.PairPair4 s a c v := by
  have hn := separated_nonneg (by positivity) h
  have ha : 0 < a := lt_of_le_of_ne (hn 0) ha0.symm
  have hc : 0 < c := lt_of_le_of_ne (hn 2) hc0.symm
  have k1 : a - c ≠ 0 := sub_ne_zero.2 hac
  refine ⟨_, (fbaseFour_of h).trans (four_aacc s a c ha hc hac), ?_⟩
  refine ⟨_, fun y hy hya hyc => pair4 s a c y ha hac hya.symm hyc.symm, ?_⟩
  have hd : HasDerivAt (fun y => (a - y + y * (Real.log y - Real.log a)) / (a - y) ^ 2 -
      (a - c + c * (Real.log c - Real.log a)) / (a - c) ^ 2)
      ((2 * (a - c) + (a + c) * (lg s c - lg s a)) / ((a - c) * (a - c) * (a - c))) c := by
    have e1 := ((hasDerivAt_id' c).const_sub a).fun_add ((hasDerivAt_id' c).fun_mul
      ((Real.hasDerivAt_log hc.ne').sub_const (Real.log a)))
    have e2 := ((hasDerivAt_id' c).const_sub a).fun_pow 2
    refine ((e1.fun_div e2 (pow_ne_zero 2 k1)).sub_const _).congr_deriv ?_
    rw [lg_pos ha, lg_pos hc]
    field_simp
    ring
  refine (slope_lim (by simp) hd).congr' ?_
  have hne : ∀ᶠ x in 𝓝[≠] c, x ≠ a :=
    ne_near hac.symm
  filter_upwards [self_mem_nhdsWithin, hne,
    (lt_mem_nhds hc).filter_mono nhdsWithin_le_nhds] with y hy hya hy0
  have j1 : y - c ≠ 0 := sub_ne_zero.2 hy
  have j2 : c - y ≠ 0 := sub_ne_zero.2 (Ne.symm hy)
  have j3 : a - y ≠ 0 := sub_ne_zero.2 (Ne.symm hya)
  simp only [g_eq, lg_pos ha, lg_pos hc, lg_pos hy0]
  field_simp
  ring

theorem triple4 (s a d : ℝ) (ha : 0 < a) (had : a ≠ d) :
    Spec.Triple4 s a d (((a - d) ^ 2 / a - 2 * Spec.g s d - 2 * (a - d) + 2 * d * lg s a) / 2 /
      (a - d) ^ 3) := by
  have k1 : a - d ≠ 0 := sub_ne_zero.2 had
  refine ⟨_, fun y hy hya hyd => pair4 s a y d ha hya.symm had hyd, ?_⟩
  have hN : Tendsto (fun x => (Spec.g s x * (a - d) ^ 2 - Spec.g s d * (a - x) ^ 2 +
      (x - d) * ((a - x) * (a - d) + (-a * a + x * d) * lg s a)) / (x - a) ^ 2) (𝓝[≠] a)
      (𝓝 (((a - d) ^ 2 / a - 2 * Spec.g s d - 2 * (a - d) + 2 * d * lg s a) / 2)) := by
    refine taylor2 (h' := fun x => (Real.log x - 2 * Real.log s + 1) * (a - d) ^ 2 +
      2 * Spec.g s d * (a - x) +
      ((a - x) * (a - d) + (-a * a + x * d) * lg s a + (x - d) * (-(a - d) + d * lg s a))) ?_ ?_ ?_ ?_
    · rw [g_eq]; ring
    · rw [← lg_pos ha]; ring
    · filter_upwards [lt_mem_nhds ha] with x hx
      have e1 := (g_deriv s hx).mul_const ((a - d) ^ 2)
      have e2 := (((hasDerivAt_id' x).const_sub a).fun_pow 2).const_mul (Spec.g s d)
      have e3 := ((hasDerivAt_id' x).const_sub a).mul_const (a - d)
      have e4 := (((hasDerivAt_id' x).mul_const d).const_add (-a * a)).mul_const (lg s a)
      have e5 := ((hasDerivAt_id' x).sub_const d).fun_mul (e3.fun_add e4)
      refine ((e1.fun_sub e2).fun_add e5).congr_deriv ?_
      rw [lg_pos hx]
      simp
      ring
    · have e1 := (((Real.hasDerivAt_log ha.ne').sub_const (2 * Real.log s)).add_const 1).mul_const
        ((a - d) ^ 2)
      have e2 := ((hasDerivAt_id' a).const_sub a).const_mul (2 * Spec.g s d)
      have e3 := ((hasDerivAt_id' a).const_sub a).mul_const (a - d)
      have e4 := (((hasDerivAt_id' a).mul_const d).const_add (-a * a)).mul_const (lg s a)
      have e5 := ((hasDerivAt_id' a).sub_const d).mul_const (-(a - d) + d * lg s a)
      refine ((e1.fun_add e2).fun_add ((e3.fun_add e4).fun_add e5)).congr_deriv ?_
      field_simp
      ring
  have hl := lim_of (a := a) (E := fun x => (a - d) ^ 2 * (x - d)) hN nhdsWithin_le_nhds (by fun_prop)
    (mul_ne_zero (pow_ne_zero 2 k1) k1) (V := fun x => (lg s a + 1) / ((a - x) * (a - d)) -
        Spec.g s a * (2 * a - x - d) / ((a - x) * (a - d)) ^ 2 +
        Spec.g s x / ((a - x) ^ 2 * (x - d)) - Spec.g s d / ((a - d) ^ 2 * (x - d))) ?_
  · rwa [show (a - d) ^ 2 * (a - d) = (a - d) ^ 3 by ring] at hl
  · have hne : ∀ᶠ x in 𝓝[≠] a, x ≠ d :=
      ne_near had
    filter_upwards [self_mem_nhdsWithin, hne] with x hx hxd
    have j1 : x - a ≠ 0 := sub_ne_zero.2 hx
    have j2 : a - x ≠ 0 := sub_ne_zero.2 (Ne.symm hx)
    have j3 : x - d ≠ 0 := sub_ne_zero.2 hxd
    rw [g_eq s a]
    field_simp
    ring

/-- Three equal masses and a different one, which may be zero: the limit. -/
theorem C36_four_triple (s a d : ℝ) (h : Spec.Separated (1 / 10 ^ 6) ![a, a, a, d]) (ha0 : a ≠ 0)
    (had : a ≠ d) : ∃ v, fbaseFour s a a a d = .ok v ∧ Spec.Triple4 s a d v := by
  have hn := separated_nonneg (by positivity) h
  have ha : 0 < a := lt_of_le_of_ne (hn 0) ha0.symm
  have k1 : a - d ≠ 0 := sub_ne_zero.2 had
  refine ⟨_, ?_, triple4 s a d ha had⟩
  rw [fbaseFour_of h]
  obtain rfl | hd := (show 0 ≤ d from hn 3).eq_or_lt
  · rw [four_aaa0 s a ha, g_eq]
    congr 1
    field_simp
    ring
  · rw [four_aaad s a d ha hd had, g_eq]
    congr 1
    field_simp
    ring

/-- Four equal masses: the limit. -/
theorem C36_four_equal (s a : ℝ) (ha : 1 / 10 ^ 6 ≤ a) :
    ∃ v, fbaseFour s a a a a = .ok v ∧ Spec.Quadruple4 s a v := by
  have ha' : 0 < a := lt_of_lt_of_le (by positivity) ha
  refine ⟨-1 / (6 * a * a), ?_, ?_⟩
  · rw [fbaseFour_of ⟨by intro i; fin_cases i <;> exact Or.inr ha,
      by intro i j; fin_cases i <;> fin_cases j <;> exact Or.inl rfl⟩, four_aaaa s a ha']
  · refine ⟨_, fun y hy hya => triple4 s a y ha' hya.symm, ?_⟩
    have hN : Tendsto (fun x => (-a * a + x * x + 2 * a * (x * (Real.log a - Real.log x))) /
        (x - a) ^ 3) (𝓝[≠] a) (𝓝 (2 / a / 6)) := by
      refine taylor3 (h' := fun x => 2 * x + 2 * a * (Real.log a - Real.log x) - 2 * a)
        (h'' := fun x => 2 - 2 * a * x⁻¹) ?_ ?_ ?_ ?_ ?_ ?_
      · ring
      · ring
      · field_simp; ring
      · filter_upwards [lt_mem_nhds ha'] with x hx
        have e1 := ((hasDerivAt_id' x).fun_mul (hasDerivAt_id' x)).const_add (-a * a)
        have e2 := ((hasDerivAt_id' x).fun_mul
          ((Real.hasDerivAt_log hx.ne').const_sub (Real.log a))).const_mul (2 * a)
        refine (e1.fun_add e2).congr_deriv ?_
        field_simp
        ring
      · filter_upwards [lt_mem_nhds ha'] with x hx
        have e1 := (hasDerivAt_id' x).const_mul (2 : ℝ)
        have e2 := ((Real.hasDerivAt_log hx.ne').const_sub (Real.log a)).const_mul (2 * a)
        refine ((e1.fun_add e2).sub_const (2 * a)).congr_deriv ?_
        ring
      · have e1 := ((hasDerivAt_inv ha'.ne').const_mul (2 * a)).const_sub 2
        refine e1.congr_deriv ?_
        field_simp
    have hl := hN.div_const (-(2 * a))
    rw [show 2 / a / 6 / -(2 * a) = -1 / (6 * a * a) by field_simp] at hl
    refine hl.congr' ?_
    filter_upwards [self_mem_nhdsWithin, (lt_mem_nhds ha').filter_mono nhdsWithin_le_nhds] with x hx h0
    have j1 : x - a ≠ 0 := sub_ne_zero.2 hx
    have j2 : a - x ≠ 0 := sub_ne_zero.2 (Ne.symm hx)
    simp only [g_eq, lg_pos ha', lg_pos h0]
    field_simp
    ring

/-- One vanishing mass and three different masses: the code returns 0, … -/
theorem C36_four_single_zero (s b c d : ℝ) (h : Spec.Separated (1 / 10 ^ 6) ![0, b, c, d])
    (h0 : b ≠ 0 ∧ c ≠ 0 ∧ d ≠ 0) (hbc : b ≠ c) (hbd : b ≠ d) (hcd : c ≠ d) :
    fbaseFour s 0 b c d = .ok 0 ∧
      Tendsto (fun x => Spec.loop4 s x b c d) (𝓝[>] 0)
        (𝓝 (lg s b / (b - c) / (b - d) + lg s c / (c - b) / (c - d) +
          lg s d / (d - b) / (d - c))) := by
  have hn := separated_nonneg (by positivity) h
  obtain ⟨b0, c0, d0⟩ := h0
  have kbc := sub_ne_zero.2 hbc
  have kcb := sub_ne_zero.2 hbc.symm
  have kbd := sub_ne_zero.2 hbd
  have kdb := sub_ne_zero.2 hbd.symm
  have kcd := sub_ne_zero.2 hcd
  have kdc := sub_ne_zero.2 hcd.symm
  refine ⟨?_, ?_⟩
  · rw [fbaseFour_of h, four_0bcd s b c d (lt_of_le_of_ne (hn 1) b0.symm)
      (lt_of_le_of_ne (hn 2) c0.symm) (lt_of_le_of_ne (hn 3) d0.symm) hbc hbd hcd]
  · have hg := g_continuous s
    have hcont : ContinuousAt (fun x => Spec.loop4 s x b c d) 0 := by
      unfold Spec.loop4
      refine (((hg.continuousAt.div ?_ ?_).add (continuousAt_const.div ?_ ?_)).add
        (continuousAt_const.div ?_ ?_)).add (continuousAt_const.div ?_ ?_)
      all_goals first | fun_prop | simp [b0, c0, d0, kbc, kcb, kbd, kdb, kcd, kdc]
    have hl := hcont.tendsto.mono_left (nhdsWithin_le_nhds (s := Set.Ioi 0))
    have e : Spec.loop4 s 0 b c d = lg s b / (b - c) / (b - d) + lg s c / (c - b) / (c - d) +
        lg s d / (d - b) / (d - c) := by
      simp only [Spec.loop4, g_eq]
      field_simp
      ring
    rwa [e] at hl

/-- … which is not the limit, for example for the masses 1, 2, 3 at scale 1. -/
theorem C36_four_single_zero_fails :
    fbaseFour 1 0 1 2 3 = .ok 0 ∧
      ¬ Tendsto (fun x => Spec.loop4 1 x 1 2 3) (𝓝[>] 0) (𝓝 0) := by
  have hs : Spec.Separated (1 / 10 ^ 6) ![(0 : ℝ), 1, 2, 3] := by
    refine ⟨by intro i; fin_cases i <;> norm_num, ?_⟩
    intro i j
    fin_cases i <;> fin_cases j <;> norm_num
  obtain ⟨h1, h2⟩ := C36_four_single_zero 1 1 2 3 hs (by norm_num) (by norm_num) (by norm_num)
    (by norm_num)
  refine ⟨h1, fun h => ?_⟩
  have he := tendsto_nhds_unique h2 h
  rw [lg_pos one_pos, lg_pos two_pos, lg_pos three_pos, Real.log_one] at he
  have hl : Real.log 3 < Real.log 4 := Real.log_lt_log (by norm_num) (by norm_num)
  have h4 : Real.log 4 = 2 * Real.log 2 := by
    rw [show (4 : ℝ) = 2 ^ 2 by norm_num, Real.log_pow]; norm_num
  norm_num at he
  linarith

/-- Two vanishing masses: the divided difference of the function with three masses, two of which
vanish, … -/
theorem C36_four_two_zero (s a b : ℝ) (h : Spec.Separated (1 / 10 ^ 6) ![a, b, 0, 0]) (ha : a ≠ 0)
    (hb : b ≠ 0) (hab : a ≠ b) :
    ∃ u v, fbaseTri s a 0 0 = .ok u ∧ fbaseTri s b 0 0 = .ok v ∧
      fbaseFour s a b 0 0 = .ok ((u - v) / (a - b)) := by
  have hn := separated_nonneg (by positivity) h
  have ha' : 0 < a := lt_of_le_of_ne (hn 0) ha.symm
  have hb' : 0 < b := lt_of_le_of_ne (hn 1) hb.symm
  have k := sub_ne_zero.2 hab
  have h8 : ∀ x : ℝ, 0 < x → (x = 0 ∨ 1 / 10 ^ 6 ≤ x) →
      Spec.Separated (1 / 10 ^ 8) ![x, 0, 0] := by
    intro x hx hx'
    have hx6 : (1 : ℝ) / 10 ^ 8 ≤ x := by
      rcases hx' with h | h
      · exact absurd h hx.ne'
      · exact le_trans (by norm_num) h
    have : (1 : ℝ) / 10 ^ 8 ≤ |x| := hx6.trans (le_abs_self x)
    refine ⟨by intro i; fin_cases i <;> simp [-one_div, hx6], ?_⟩
    intro i j; fin_cases i <;> fin_cases j <;> simp [-one_div, this]
  refine ⟨(lg s a - 1) / a, (lg s b - 1) / b, ?_, ?_, ?_⟩
  · rw [fbaseTri_of (h8 a ha' (h.1 0)), tri_a00 s a ha']
  · rw [fbaseTri_of (h8 b hb' (h.1 1)), tri_a00 s b hb']
  · rw [fbaseFour_of h, four_ab00 s a b ha' hb' hab]
    congr 1
    field_simp
    ring

/-- … its limit for two equal masses, … -/
theorem C36_four_two_zero_equal (s a : ℝ) (ha : 1 / 10 ^ 6 ≤ a) :
    ∃ v, fbaseFour s a a 0 0 = .ok v ∧
      Tendsto (fun x => (((Real.log x - 2 * Real.log s) - 1) / x -
        ((Real.log a - 2 * Real.log s) - 1) / a) / (x - a)) (𝓝[≠] a) (𝓝 v) := by
  have ha' : 0 < a := lt_of_lt_of_le (by positivity) ha
  refine ⟨_, ?_, slope_lim (h := fun x => ((Real.log x - 2 * Real.log s) - 1) / x -
        ((Real.log a - 2 * Real.log s) - 1) / a) (by simp)
    ((((((Real.hasDerivAt_log ha'.ne').sub_const _).sub_const 1).fun_div (hasDerivAt_id' a)
      ha'.ne').sub_const _))⟩
  have hab : (1 : ℝ) / 10 ^ 6 ≤ |a| := ha.trans (le_abs_self a)
  rw [fbaseFour_of, four_aa00 s a ha', lg_pos ha']
  · congr 1
    field_simp
    ring
  · refine ⟨by intro i; fin_cases i <;> simp [-one_div, ha], ?_⟩
    intro i j; fin_cases i <;> fin_cases j <;> simp [-one_div, hab]

/-- … and its limit for a third vanishing mass after the divergent terms have been removed. -/
theorem C36_four_three_zero (s a : ℝ) (ha : 1 / 10 ^ 6 ≤ a) :
    ∃ v, fbaseFour s a 0 0 0 = .ok v ∧
      Tendsto (fun x => (((Real.log a - 2 * Real.log s) - 1) / a -
        ((Real.log x - 2 * Real.log s) - 1) / x) / (a - x) +
        ((Real.log x - 2 * Real.log s) - 1) / (a * x) + (Real.log x - 2 * Real.log s) / a ^ 2)
        (𝓝[>] 0) (𝓝 v) := by
  have ha' : 0 < a := lt_of_lt_of_le (by positivity) ha
  have hab : (1 : ℝ) / 10 ^ 6 ≤ |a| := ha.trans (le_abs_self a)
  refine ⟨lg s a / (a * a), ?_, ?_⟩
  · rw [fbaseFour_of, four_a000 s a ha']
    refine ⟨by intro i; fin_cases i <;> simp [-one_div, ha], ?_⟩
    intro i j; fin_cases i <;> fin_cases j <;> simp [-one_div, hab]
  · have h1 : Tendsto (fun x : ℝ => ((lg s a - 1) / a + 1 / a) / (a - x)) (𝓝[>] 0)
        (𝓝 (((lg s a - 1) / a + 1 / a) / (a - 0))) := by
      have : ContinuousAt (fun x : ℝ => ((lg s a - 1) / a + 1 / a) / (a - x)) 0 :=
        ContinuousAt.div (by fun_prop) (by fun_prop) (by simp [ha'.ne'])
      exact this.tendsto.mono_left nhdsWithin_le_nhds
    have h2 : Tendsto (fun x : ℝ => 1 / (a ^ 2 * (a - x))) (𝓝[>] 0) (𝓝 (1 / (a ^ 2 * (a - 0)))) := by
      have : ContinuousAt (fun x : ℝ => 1 / (a ^ 2 * (a - x))) 0 :=
        ContinuousAt.div (by fun_prop) (by fun_prop) (by simp [ha'.ne'])
      exact this.tendsto.mono_left nhdsWithin_le_nhds
    have h3 := h1.sub ((mul_log_zero s).mul h2)
    have e : ((lg s a - 1) / a + 1 / a) / (a - 0) - 0 * (1 / (a ^ 2 * (a - 0))) = lg s a / (a * a) := by
      rw [sub_zero]; field_simp; ring
    rw [e] at h3
    refine h3.congr' ?_
    have hlt : ∀ᶠ x in 𝓝[>] (0 : ℝ), x < a :=
      (gt_mem_nhds ha' : ∀ᶠ x in 𝓝 (0 : ℝ), x < a).filter_mono nhdsWithin_le_nhds
    filter_upwards [self_mem_nhdsWithin, hlt] with x hx hxa
    have hx' : x ≠ 0 := (show 0 < x from hx).ne'
    have k2 : a - x ≠ 0 := sub_ne_zero.2 hxa.ne'
    rw [lg_pos ha']
    field_simp
    ring

/-- Masses that meet the hypotheses: 1, 1, 2 and 0. -/
example : Spec.Separated (1 / 10 ^ 6) ![(1 : ℝ), 1, 2, 0] := by
  refine ⟨by intro i; fin_cases i <;> norm_num, ?_⟩
  intro i j
  fin_cases i <;> fin_cases j <;> norm_num

end Verif.Potential
