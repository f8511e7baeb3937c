import Verif.Potential.FourCases
import Verif.Potential.LoopFunSpec
import Mathlib.Analysis.Calculus.LHopital
import Mathlib.Analysis.SpecialFunctions.Log.Deriv
import Mathlib.Analysis.SpecialFunctions.Log.NegMulLog
import Mathlib.Analysis.Calculus.Deriv.Inv
import Mathlib.GroupTheory.Perm.Fin
import Mathlib.GroupTheory.Perm.Closure
import Mathlib.Tactic.FinCases
import Mathlib.Tactic.NormNum
import Mathlib.Tactic.Positivity

/-!
# Lemmas about limits and about the rounding of the masses
-/

set_option linter.unusedSimpArgs false

namespace Verif.Potential

open Outcome Filter Topology

/-! ## Limits -/

theorem slope_lim {h : ℝ → ℝ} {a h1 : ℝ} (h0 : h a = 0) (hd : HasDerivAt h h1 a) :
    Tendsto (fun x => h x / (x - a)) (𝓝[≠] a) (𝓝 h1) := by
  have := hasDerivAt_iff_tendsto_slope.1 hd
  refine this.congr fun x => ?_
  rw [slope_def_field, h0, sub_zero]

theorem taylor2 {h h' : ℝ → ℝ} {a h2 : ℝ} (h0 : h a = 0) (h1 : h' a = 0)
    (hd : ∀ᶠ x in 𝓝 a, HasDerivAt h (h' x) x) (hd' : HasDerivAt h' h2 a) :
    Tendsto (fun x => h x / (x - a) ^ 2) (𝓝[≠] a) (𝓝 (h2 / 2)) := by
  have hc : Tendsto h (𝓝[≠] a) (𝓝 0) := by
    have := hd.self_of_nhds.continuousAt.tendsto
    rw [h0] at this
    exact this.mono_left nhdsWithin_le_nhds
  have hg : ∀ x : ℝ, HasDerivAt (fun x : ℝ => (x - a) ^ 2) (2 * (x - a)) x := by
    intro x
    simpa using ((hasDerivAt_id' x).sub_const a).fun_pow 2
  have hgc : Tendsto (fun x : ℝ => (x - a) ^ 2) (𝓝[≠] a) (𝓝 0) := by
    have := (hg a).continuousAt.tendsto
    simp only [sub_self, ne_eq, OfNat.ofNat_ne_zero, not_false_eq_true, zero_pow] at this
    exact this.mono_left nhdsWithin_le_nhds
  refine HasDerivAt.lhopital_zero_nhdsNE (hd.filter_mono nhdsWithin_le_nhds)
    (Eventually.of_forall hg) ?_ hc hgc ?_
  · filter_upwards [self_mem_nhdsWithin] with x hx
    exact mul_ne_zero two_ne_zero (sub_ne_zero.2 hx)
  · refine ((slope_lim h1 hd').div_const 2).congr fun x => ?_
    rw [div_div, mul_comm]

theorem taylor3 {h h' h'' : ℝ → ℝ} {a h3 : ℝ} (h0 : h a = 0) (h1 : h' a = 0) (h2 : h'' a = 0)
    (hd : ∀ᶠ x in 𝓝 a, HasDerivAt h (h' x) x) (hd' : ∀ᶠ x in 𝓝 a, HasDerivAt h' (h'' x) x)
    (hd'' : HasDerivAt h'' h3 a) :
    Tendsto (fun x => h x / (x - a) ^ 3) (𝓝[≠] a) (𝓝 (h3 / 6)) := by
  have hc : Tendsto h (𝓝[≠] a) (𝓝 0) := by
    have := hd.self_of_nhds.continuousAt.tendsto
    rw [h0] at this
    exact this.mono_left nhdsWithin_le_nhds
  have hg : ∀ x : ℝ, HasDerivAt (fun x : ℝ => (x - a) ^ 3) (3 * (x - a) ^ 2) x := by
    intro x
    simpa using ((hasDerivAt_id' x).sub_const a).fun_pow 3
  have hgc : Tendsto (fun x : ℝ => (x - a) ^ 3) (𝓝[≠] a) (𝓝 0) := by
    have := (hg a).continuousAt.tendsto
    simp only [sub_self, ne_eq, OfNat.ofNat_ne_zero, not_false_eq_true, zero_pow] at this
    exact this.mono_left nhdsWithin_le_nhds
  refine HasDerivAt.lhopital_zero_nhdsNE (hd.filter_mono nhdsWithin_le_nhds)
    (Eventually.of_forall hg) ?_ hc hgc ?_
  · filter_upwards [self_mem_nhdsWithin] with x hx
    exact mul_ne_zero three_ne_zero (pow_ne_zero 2 (sub_ne_zero.2 hx))
  · have := (taylor2 h1 h2 hd' hd'').div_const 3
    rw [div_div, show (2 : ℝ) * 3 = 6 by norm_num] at this
    refine this.congr fun x => ?_
    rw [div_div, mul_comm]

theorem lim_of {V Q E : ℝ → ℝ} {a n : ℝ} {F : Filter ℝ} (hQ : Tendsto Q F (𝓝 n))
    (hF : F ≤ 𝓝 a) (hE : ContinuousAt E a) (hE0 : E a ≠ 0)
    (hV : ∀ᶠ x in F, V x = Q x / E x) : Tendsto V F (𝓝 (n / E a)) :=
  (hQ.div (hE.tendsto.mono_left hF) hE0).congr' (hV.mono fun _ h => h.symm)

theorem lg_pos {s x : ℝ} (hx : 0 < x) : lg s x = Real.log x - 2 * Real.log s := by
  rw [lg, if_neg hx.ne']

theorem lg_zero (s : ℝ) : lg s 0 = 0 := by rw [lg, if_pos rfl]

theorem g_eq (s x : ℝ) : Spec.g s x = x * lg s x := by
  unfold Spec.g lg
  split
  · next h => simp [h]
  · rfl

theorem g_deriv (s : ℝ) {x : ℝ} (hx : 0 < x) : HasDerivAt (Spec.g s) (lg s x + 1) x := by
  unfold Spec.g
  have h := (hasDerivAt_id' x).fun_mul ((Real.hasDerivAt_log hx.ne').sub_const (2 * Real.log s))
  refine h.congr_deriv ?_
  rw [lg_pos hx]
  field_simp

theorem g_continuous (s : ℝ) : Continuous (Spec.g s) := by
  have : Spec.g s = fun x => x * Real.log x - x * (2 * Real.log s) := by
    funext x; unfold Spec.g; ring
  rw [this]
  exact Real.continuous_mul_log.sub (continuous_id.mul continuous_const)

/-! ## Rounding -/

theorem zeroed_of {t x : ℝ} (h : x = 0 ∨ t ≤ x) : zeroed t x = x := by
  unfold zeroed
  split
  · next hx =>
    rcases h with rfl | h
    · rfl
    · exact absurd hx (not_lt.2 (h.trans (le_abs_self _)))
  · rfl

theorem merged_of {t x y : ℝ} (h : x = y ∨ t ≤ |x - y|) : merged t x y = x := by
  unfold merged
  split
  · next hx =>
    rcases h with rfl | h
    · rfl
    · exact absurd hx (not_lt.2 h)
  · rfl

theorem fbaseTri_of {s a b c : ℝ} (h : Spec.Separated (1 / 10 ^ 8) ![a, b, c]) :
    fbaseTri s a b c = triBranch s a b c := by
  obtain ⟨h1, h2⟩ := h
  have a0 := h1 0; have b0 := h1 1; have c0 := h1 2
  have ab := h2 0 1; have ac := h2 0 2; have bc := h2 1 2
  simp only [Matrix.cons_val_zero, Matrix.cons_val_one, Matrix.cons_val] at a0 b0 c0 ab ac bc
  unfold fbaseTri
  simp only [zeroed_of a0, zeroed_of b0, zeroed_of c0, merged_of ab, merged_of ac, merged_of bc]

theorem fbaseFour_of {s a b c d : ℝ} (h : Spec.Separated (1 / 10 ^ 6) ![a, b, c, d]) :
    fbaseFour s a b c d = fourBranch s a b c d := by
  obtain ⟨h1, h2⟩ := h
  have a0 := h1 0; have b0 := h1 1; have c0 := h1 2; have d0 := h1 3
  have ba := h2 1 0; have ca := h2 2 0; have da := h2 3 0
  have cb := h2 2 1; have db := h2 3 1; have dc := h2 3 2
  simp only [Matrix.cons_val_zero, Matrix.cons_val_one, Matrix.cons_val] at *
  unfold fbaseFour
  simp only [zeroed_of a0, zeroed_of b0, zeroed_of c0, zeroed_of d0, merged_of ba, merged_of ca,
    merged_of da, merged_of cb, merged_of db, merged_of dc]

/-! ## Three masses -/

theorem tri_000 (s : ℝ) : triBranch s 0 0 0 = .ok 0 := by simp [triBranch]

theorem tri_a00 (s a : ℝ) (ha : 0 < a) : triBranch s a 0 0 = .ok ((lg s a - 1) / a) := by
  simp [triBranch, ck, ha.ne', ha.not_gt]
  field_simp

theorem tri_0b0 (s a : ℝ) (ha : 0 < a) : triBranch s 0 a 0 = .ok ((lg s a - 1) / a) := by
  simp [triBranch, ck, ha.ne', ha.not_gt]

theorem tri_00c (s a : ℝ) (ha : 0 < a) : triBranch s 0 0 a = .ok ((lg s a - 1) / a) := by
  simp [triBranch, ck, ha.ne', ha.not_gt]

theorem tri_aa0 (s a : ℝ) (ha : 0 < a) : triBranch s a a 0 = .ok (1 / a) := by
  simp [triBranch, ck, ha.ne']

theorem tri_a0a (s a : ℝ) (ha : 0 < a) : triBranch s a 0 a = .ok (1 / a) := by
  simp [triBranch, ck, ha.ne', ha.ne]

theorem tri_0bb (s a : ℝ) (ha : 0 < a) : triBranch s 0 a a = .ok (1 / a) := by
  simp [triBranch, ck, ha.ne', ha.ne]

theorem tri_aaa (s a : ℝ) (ha : 0 < a) : triBranch s a a a = .ok (1 / (2 * a)) := by
  simp [triBranch, ck, ha.ne']

theorem tri_aac (s a c : ℝ) (ha : 0 < a) (hc : 0 < c) (h : a ≠ c) :
    triBranch s a a c = .ok ((a - c + c * (lg s c - lg s a)) / (a - c) ^ 2) := by
  have h2 : ¬ c / a < 0 := not_lt.2 (by positivity)
  simp [triBranch, ck, ha.ne', hc.ne', h, h2, Real.log_div hc.ne' ha.ne', lg_pos ha, lg_pos hc]

theorem tri_aba (s a b : ℝ) (ha : 0 < a) (hb : 0 < b) (h : a ≠ b) :
    triBranch s a b a = .ok ((a - b + b * (lg s b - lg s a)) / (a - b) ^ 2) := by
  have h2 : ¬ b / a < 0 := not_lt.2 (by positivity)
  have h3 : a - b ≠ 0 := sub_ne_zero.2 h
  have h4 : b - a ≠ 0 := sub_ne_zero.2 h.symm
  simp [triBranch, ck, ha.ne', hb.ne', h, h2, Real.log_div hb.ne' ha.ne', lg_pos ha, lg_pos hb]
  field_simp
  ring

theorem tri_abb (s a b : ℝ) (ha : 0 < a) (hb : 0 < b) (h : a ≠ b) :
    triBranch s a b b = .ok ((b - a + a * (lg s a - lg s b)) / (b - a) ^ 2) := by
  have h2 : ¬ a / b < 0 := not_lt.2 (by positivity)
  have h3 : a - b ≠ 0 := sub_ne_zero.2 h
  have h4 : b - a ≠ 0 := sub_ne_zero.2 h.symm
  simp [triBranch, ck, ha.ne', hb.ne', h, h.symm, h2, Real.log_div ha.ne' hb.ne', lg_pos ha, lg_pos hb]
  field_simp
  ring

theorem tri_abc (s a b c : ℝ) (ha : 0 ≤ a) (hb : 0 ≤ b) (hc : 0 ≤ c) (hab : a ≠ b) (hac : a ≠ c)
    (hbc : b ≠ c) : triBranch s a b c = .ok (Spec.loop3 s a b c) := by
  have e : triBranch s a b c = ck [a, b, c] (a * lg s a / ((a - b) * (a - c)) +
      b * lg s b / ((b - a) * (b - c)) + c * lg s c / ((c - a) * (c - b))) := by
    unfold triBranch
    simp only [hab, hac, hbc, hab.symm, hac.symm, hbc.symm, false_and, and_false, if_false]
    rw [if_neg, if_neg, if_neg, if_neg]
    · rintro ⟨rfl, rfl, _⟩; exact hab rfl
    · rintro ⟨rfl, _, rfl⟩; exact hac rfl
    · rintro ⟨_, rfl, rfl⟩; exact hbc rfl
    · rintro ⟨rfl, rfl, _⟩; exact hab rfl
  rw [e, ck, if_neg (by simp [ha.not_gt, hb.not_gt, hc.not_gt])]
  simp only [Spec.loop3, g_eq]

theorem loop3_swap12 (s a b c : ℝ) : Spec.loop3 s b a c = Spec.loop3 s a b c := by
  unfold Spec.loop3; ring

theorem loop3_swap23 (s a b c : ℝ) : Spec.loop3 s a c b = Spec.loop3 s a b c := by
  unfold Spec.loop3; ring

theorem tri_swap12 (s a b c : ℝ) (za : 0 ≤ a) (zb : 0 ≤ b) (zc : 0 ≤ c) :
    triBranch s b a c = triBranch s a b c := by
  rcases eq_or_ne a b with rfl | hab
  · rfl
  rcases eq_or_ne a c with rfl | hac
  · obtain rfl | ha := za.eq_or_lt
    · have hb := lt_of_le_of_ne zb hab
      rw [tri_a00 s b hb, tri_0b0 s b hb]
    · obtain rfl | hb := zb.eq_or_lt
      · rw [tri_a0a s a ha, tri_0bb s a ha]
      · rw [tri_aba s a b ha hb hab, tri_abb s b a hb ha hab.symm]
  rcases eq_or_ne b c with rfl | hbc
  · obtain rfl | hb := zb.eq_or_lt
    · have ha := lt_of_le_of_ne za hab.symm
      rw [tri_a00 s a ha, tri_0b0 s a ha]
    · obtain rfl | ha := za.eq_or_lt
      · rw [tri_a0a s b hb, tri_0bb s b hb]
      · rw [tri_aba s b a hb ha hab.symm, tri_abb s a b ha hb hab]
  rw [tri_abc s b a c zb za zc hab.symm hbc hac, tri_abc s a b c za zb zc hab hac hbc, loop3_swap12]

theorem tri_swap23 (s a b c : ℝ) (za : 0 ≤ a) (zb : 0 ≤ b) (zc : 0 ≤ c) :
    triBranch s a c b = triBranch s a b c := by
  rcases eq_or_ne b c with rfl | hbc
  · rfl
  rcases eq_or_ne a c with rfl | hac
  · obtain rfl | ha := za.eq_or_lt
    · have hb := lt_of_le_of_ne zb hbc.symm
      rw [tri_00c s b hb, tri_0b0 s b hb]
    · obtain rfl | hb := zb.eq_or_lt
      · rw [tri_a0a s a ha, tri_aa0 s a ha]
      · rw [tri_aba s a b ha hb hbc.symm, tri_aac s a b ha hb hbc.symm]
  rcases eq_or_ne a b with rfl | hab
  · obtain rfl | ha := za.eq_or_lt
    · have hc := lt_of_le_of_ne zc hac
      rw [tri_00c s c hc, tri_0b0 s c hc]
    · obtain rfl | hc := zc.eq_or_lt
      · rw [tri_a0a s a ha, tri_aa0 s a ha]
      · rw [tri_aba s a c ha hc hac, tri_aac s a c ha hc hac]
  rw [tri_abc s a c b za zc zb hac hab hbc.symm, tri_abc s a b c za zb zc hab hac hbc, loop3_swap23]

/-- A function of `n + 1` arguments that may exchange neighbours may permute its arguments. -/
theorem perm_of_swaps {β : Type} {n : Nat} (P : (Fin (n + 1) → ℝ) → Prop)
    (hP : ∀ m (σ : Equiv.Perm (Fin (n + 1))), P m → P (m ∘ σ)) (F : (Fin (n + 1) → ℝ) → β)
    (h : ∀ (i : Fin n) m, P m → F (m ∘ Equiv.swap i.castSucc i.succ) = F m)
    (σ : Equiv.Perm (Fin (n + 1))) (m : Fin (n + 1) → ℝ) (hm : P m) : F (m ∘ σ) = F m := by
  have hσ : σ ∈ Submonoid.closure
      (Set.range fun i : Fin n => Equiv.swap i.castSucc i.succ) := by
    rw [Equiv.Perm.mclosure_swap_castSucc_succ]; trivial
  induction hσ using Submonoid.closure_induction generalizing m with
  | mem x hx =>
    obtain ⟨i, rfl⟩ := hx
    exact h i m hm
  | one => rfl
  | mul x y _ _ hx hy =>
    have e : m ∘ (x * y : Equiv.Perm (Fin (n + 1))) = (m ∘ x) ∘ y := rfl
    rw [e, hy _ (hP m x hm), hx m hm]

theorem separated_perm {t : ℝ} {n : Nat} {m : Fin n → ℝ} (σ : Equiv.Perm (Fin n))
    (h : Spec.Separated t m) : Spec.Separated t (m ∘ σ) :=
  ⟨fun i => h.1 (σ i), fun i j => h.2 (σ i) (σ j)⟩

theorem separated_nonneg {t : ℝ} (ht : 0 ≤ t) {n : Nat} {m : Fin n → ℝ} (h : Spec.Separated t m)
    (i : Fin n) : 0 ≤ m i := by
  rcases h.1 i with h | h
  · rw [h]
  · exact ht.trans h

end Verif.Potential
