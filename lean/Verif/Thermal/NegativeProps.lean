import Mathlib.Analysis.Real.Pi.Bounds
import Mathlib.Tactic.FieldSimp
import Verif.Thermal.Negative
import Verif.Thermal.Props
import Verif.Spline.SlopeProps

/-!
# The bosonic thermal function for negative squared masses (C116)
-/

set_option linter.unusedSimpArgs false

namespace Verif.Thermal.Negative

open Outcome Filter Topology

namespace Spec

/-- The value of the table at the squared mass `-i T²`, in full precision. -/
noncomputable def exact (i : Nat) : ℝ := (Table.pairOrdinates.getD i 0 : ℝ) / 10 ^ 10

/-- The value of the rounded copy of the table. -/
noncomputable def rounded (i : Nat) : ℝ := (Table.ordinates.getD i 0 : ℝ) / 10 ^ 6

end Spec

theorem abscissae_length : Table.abscissae.length = 3001 := by simp [Table.abscissae]

theorem pairAbscissae_length : Table.pairAbscissae.length = 3001 := by simp [Table.pairAbscissae]

theorem ordinates_length : Table.ordinates.length = 3001 := by decide +kernel

theorem pairOrdinates_length : Table.pairOrdinates.length = 3001 := by decide +kernel

theorem abscissae_get (i : Nat) (hi : i < 3001) : Table.abscissae.getD i 0 = (i : Int) := by
  simp [Table.abscissae, List.getD, List.getElem?_range, hi]

theorem pairAbscissae_get (i : Nat) (hi : i < 3001) : Table.pairAbscissae[i]? = some (-(i : Int)) := by
  simp [Table.pairAbscissae, List.getElem?_map, List.getElem?_range, hi]

/-- Two integers, one of them rounded to six digits. -/
def close (v w : Int) : Bool := decide ((v * 10000 - w).natAbs * 1000000 ≤ 5 * w.natAbs)

theorem close_iff (v w : Int) : close v w = true ↔ (v * 10000 - w).natAbs * 1000000 ≤ 5 * w.natAbs :=
  decide_eq_true_iff

theorem close_all : (List.zipWith close Table.ordinates Table.pairOrdinates).all id = true := by
  decide +kernel

theorem zip_at (f : Int → Int → Bool) (n i : Nat) (l m : List Int) (hl : l.length = n) (hm : m.length = n)
    (h : (List.zipWith f l m).all id = true) (hi : i < n) : ∃ v w, l[i]? = some v ∧
      m[i]? = some w ∧ f v w = true := by
  rw [List.all_eq_true] at h
  have hz : i < (List.zipWith f l m).length := by
    rw [List.length_zipWith, hl, hm]; omega
  have := h _ (List.getElem_mem hz)
  rw [List.getElem_zipWith] at this
  exact ⟨_, _, List.getElem?_eq_getElem _, List.getElem?_eq_getElem _, this⟩

theorem close_at (i : Nat) (hi : i < 3001) : ∃ v w, Table.ordinates[i]? = some v ∧
    Table.pairOrdinates[i]? = some w ∧ (v * 10000 - w).natAbs * 1000000 ≤ 5 * w.natAbs := by
  obtain ⟨v, w, h1, h2, h3⟩ := zip_at close 3001 i _ _ ordinates_length pairOrdinates_length close_all hi
  exact ⟨v, w, h1, h2, (close_iff v w).1 h3⟩

attribute [local irreducible] Table.ordinates Table.pairOrdinates Table.abscissae Table.pairAbscissae

/-- The two tables of the same function in the source agree to the six digits of the rounded one, in
every of the 3001 lines, and both are complete. -/
theorem C116_tables_agree : Table.ordinates.length = 3001 ∧ Table.pairOrdinates.length = 3001 ∧
    ∀ i < 3001, |Spec.rounded i - Spec.exact i| ≤ 5 / 10 ^ 6 * |Spec.exact i| := by
  refine ⟨ordinates_length, pairOrdinates_length, fun i hi => ?_⟩
  obtain ⟨v, w, hv, hw, this⟩ := close_at i hi
  simp only [Spec.rounded, Spec.exact, List.getD, hv, hw, Option.getD_some]
  have h2 : ((v * 10000 - w).natAbs : ℝ) * 1000000 ≤ 5 * (w.natAbs : ℝ) := by exact_mod_cast this
  rw [Nat.cast_natAbs, Nat.cast_natAbs] at h2
  push_cast at h2
  rw [show (v : ℝ) / 10 ^ 6 - (w : ℝ) / 10 ^ 10 = ((v : ℝ) * 10000 - w) / 10 ^ 10 by ring, abs_div, abs_div,
    abs_of_pos (show (0 : ℝ) < 10 ^ 10 by norm_num)]
  rw [div_le_iff₀ (by norm_num)]
  have : 5 / 10 ^ 6 * (|(w : ℝ)| / 10 ^ 10) * 10 ^ 10 = 5 / 10 ^ 6 * |(w : ℝ)| := by field_simp
  rw [this]
  linarith

theorem points : Spline.Spec.Points (Spline.setBoundary (Spline.fresh ℝ) .first (-Real.pi ^ 2 / 12) .first
    (3816357189 / 10 ^ 9)) Table.abscissae.length (fun i => (Table.abscissae.getD i 0 : ℝ)) := by
  refine ⟨by rw [abscissae_length]; norm_num, fun h => ?_, fun i hi => ?_⟩
  · rw [abscissae_length]; norm_num
  · rw [abscissae_length] at hi
    rw [abscissae_get i (by omega), abscissae_get (i + 1) hi]
    push_cast
    linarith

theorem abscissa (i : Nat) (hi : i < 3001) : (Table.abscissae.getD i 0 : ℝ) = i := by
  rw [abscissae_get i hi]; simp

theorem eval_at (i : Nat) (hi : i < 3001) : Spline.eval spl (i : ℝ) = Spec.rounded i := by
  have := Spline.C64_interpolates _ _ _ (fun i => (Table.ordinates.getD i 0 : ℝ) / 10 ^ 6) .cspline points i
    (by rw [abscissae_length]; exact hi)
  beta_reduce at this
  rw [abscissa i hi] at this
  exact this

theorem slope_left : Spline.deriv spl 1 0 = -Real.pi ^ 2 / 12 := by
  have := (Spline.C64_set_boundary (Spline.fresh ℝ) .first .first (-Real.pi ^ 2 / 12)
    (3816357189 / 10 ^ 9) _ _ (fun i => (Table.ordinates.getD i 0 : ℝ) / 10 ^ 6) points).2.2.1 rfl (by decide)
  beta_reduce at this
  rw [abscissa 0 (by norm_num), Nat.cast_zero] at this
  exact this

theorem slope_end (n : Nat) (x y : Nat → ℝ) (a b c : ℝ) (hp : Spline.Spec.Points (Spline.setBoundary
    (Spline.fresh ℝ) .first a .first b) (n + 1) x) (hx : x n = c) :
    Spline.deriv (construct (n + 1) x y .cspline .first a .first b) 1 c = b := by
  subst hx
  exact (Spline.C64_set_boundary (Spline.fresh ℝ) .first .first a b _ _ y hp).1 rfl

theorem slope_right : Spline.deriv spl 1 3000 = 3816357189 / 10 ^ 9 := by
  have hp := points
  rw [abscissae_length] at hp
  have := slope_end 3000 _ (fun i => (Table.ordinates.getD i 0 : ℝ) / 10 ^ 6) _ _ 3000 hp
    (by rw [abscissa 3000 (by norm_num)]; norm_num)
  rw [spl, abscissae_length, this]

theorem spl_derivative (t : ℝ) : HasDerivAt (Spline.eval spl) (Spline.deriv spl 1 t) t :=
  Spline.C64_derivative _ _ _ _ .cspline points (by decide) t

theorem extrapolated (n : Nat) (x y : Nat → ℝ) (a b c t : ℝ) (hp : Spline.Spec.Points (Spline.setBoundary
    (Spline.fresh ℝ) .first a .first b) (n + 1) x) (hx : x n = c) (ht : c ≤ t) :
    Spline.eval (construct (n + 1) x y .cspline .first a .first b) t = y n + b * (t - c) := by
  subst hx
  have h := (Spline.C64_extrapolation _ _ x y .cspline (by decide) hp t).2 ht
  have hd := (Spline.C64_set_boundary (Spline.fresh ℝ) .first .first a b _ _ y hp).1 rfl
  rw [hd] at h
  rw [construct, h]
  simp [Spline.setBoundary]

theorem right_line (t : ℝ) (ht : 3000 ≤ t) :
    Spline.eval spl t = Spec.rounded 3000 + 3816357189 / 10 ^ 9 * (t - 3000) := by
  have hp := points
  rw [abscissae_length] at hp
  have := extrapolated 3000 _ (fun i => (Table.ordinates.getD i 0 : ℝ) / 10 ^ 6) _ _ 3000 t hp
    (by rw [abscissa 3000 (by norm_num)]; norm_num) ht
  rw [spl, abscissae_length, this, Spec.rounded]

theorem value_negative (zeta : Nat → ℝ) (x : ℝ) (hx : x < 0) :
    bosonInterpolated zeta spline x 0 = Spline.eval spl (-x) + 3533375127 / 10 ^ 15 ∧
      bosonInterpolated zeta spline x 1 = -Spline.deriv spl 1 (-x) := by
  have h1 : ¬bosonTheta ≤ x := by unfold bosonTheta; norm_num; linarith
  have h2 : ¬0 ≤ x := not_le.2 hx
  constructor <;> simp [bosonInterpolated, bosonNegative, h1, h2, hx, spline]

/-- At every tabulated squared mass the function returns the tabulated value, shifted by a constant
of 3.5 · 10⁻⁶, and so agrees with the table in full precision to the accuracy of the rounded one. -/
theorem C116_tabulated (zeta : Nat → ℝ) (i : Nat) (h0 : 0 < i) (hi : i ≤ 3000) :
    bosonInterpolated zeta spline (-(i : ℝ)) 0 = Spec.rounded i + 3533375127 / 10 ^ 15 ∧
      |bosonInterpolated zeta spline (-(i : ℝ)) 0 - Spec.exact i|
        ≤ 5 / 10 ^ 6 * |Spec.exact i| + 36 / 10 ^ 7 := by
  have h : bosonInterpolated zeta spline (-(i : ℝ)) 0 = Spec.rounded i + 3533375127 / 10 ^ 15 := by
    rw [(value_negative zeta _ (by simpa using h0)).1, neg_neg, eval_at i (by omega)]
  refine ⟨h, ?_⟩
  rw [h, show Spec.rounded i + 3533375127 / 10 ^ 15 - Spec.exact i
    = (Spec.rounded i - Spec.exact i) + 3533375127 / 10 ^ 15 by ring]
  refine (abs_add_le _ _).trans (add_le_add (C116_tables_agree.2.2 i (by omega)) ?_)
  rw [abs_of_pos (by norm_num)]
  norm_num

/-- The function returned for the derivative is the derivative, at every negative squared mass. -/
theorem C116_derivative (zeta : Nat → ℝ) (x : ℝ) (hx : x < 0) :
    HasDerivAt (fun u => bosonInterpolated zeta spline u 0) (bosonInterpolated zeta spline x 1) x := by
  rw [(value_negative zeta x hx).2]
  have h : HasDerivAt (fun u : ℝ => Spline.eval spl (-u) + 3533375127 / 10 ^ 15) (-Spline.deriv spl 1 (-x)) x := by
    have := ((spl_derivative (-x)).scomp x (hasDerivAt_neg x)).add_const (3533375127 / 10 ^ 15 : ℝ)
    refine HasDerivAt.congr_deriv this ?_
    simp
  refine h.congr_of_eventuallyEq ?_
  filter_upwards [Iio_mem_nhds hx] with u hu
  exact (value_negative zeta u hu).1

/-- At zero the function for negative squared masses ends within 10⁻⁹ of the value of the expansion
that continues it, −π⁴/45, and its derivative ends at the derivative of the expansion. -/
theorem C116_join (zeta : Nat → ℝ) :
    Tendsto (fun u => bosonInterpolated zeta spline u 0) (𝓝[<] 0)
        (𝓝 (-216465 / 10 ^ 5 + 3533375127 / 10 ^ 15)) ∧
      |(-216465 / 10 ^ 5 + 3533375127 / 10 ^ 15) - bosonInterpolated zeta spline 0 0| < 1 / 10 ^ 9 ∧
      bosonInterpolated zeta spline 0 0 = -Real.pi ^ 4 / 45 ∧
      HasDerivWithinAt (fun u => if u < 0 then bosonInterpolated zeta spline u 0
        else -216465 / 10 ^ 5 + 3533375127 / 10 ^ 15) (bosonInterpolated zeta spline 0 1) (Set.Iic 0) 0 ∧
      bosonInterpolated zeta spline 0 1 = Real.pi ^ 2 / 12 := by
  have hv0 : Spec.rounded 0 = -216465 / 10 ^ 5 := by
    have : Table.ordinates.getD 0 0 = -2164650 := by decide +kernel
    rw [Spec.rounded, this]; norm_num
  have e0 : Spline.eval spl 0 = -216465 / 10 ^ 5 := by
    have := eval_at 0 (by norm_num)
    rw [Nat.cast_zero] at this
    rw [this, hv0]
  have hth : ¬bosonTheta ≤ 0 := by unfold bosonTheta; norm_num
  have z0 : bosonInterpolated zeta spline 0 0 = -Real.pi ^ 4 / 45 := by
    simp [bosonInterpolated, hth, bosonLow]
  have z1 : bosonInterpolated zeta spline 0 1 = Real.pi ^ 2 / 12 := by
    simp [bosonInterpolated, hth, bosonLow]
  have hder : HasDerivAt (fun u : ℝ => Spline.eval spl (-u) + 3533375127 / 10 ^ 15) (Real.pi ^ 2 / 12) 0 := by
    have := ((spl_derivative (-0)).scomp 0 (hasDerivAt_neg (0 : ℝ))).add_const (3533375127 / 10 ^ 15 : ℝ)
    refine HasDerivAt.congr_deriv this ?_
    rw [neg_zero, slope_left, smul_eq_mul]
    ring
  refine ⟨?_, ?_, z0, ?_, z1⟩
  · have hc := hder.continuousAt.tendsto
    simp only [neg_zero, e0] at hc
    refine (hc.mono_left nhdsWithin_le_nhds).congr' ?_
    filter_upwards [self_mem_nhdsWithin] with u hu
    exact (value_negative zeta u hu).1.symm
  · rw [z0, abs_lt]
    have l := Real.pi_gt_d20
    have u := Real.pi_lt_d20
    have l2 : (3.14159265358 : ℝ) ^ 4 < Real.pi ^ 4 :=
      pow_lt_pow_left₀ (by linarith) (by norm_num) (by norm_num)
    have u2 : Real.pi ^ 4 < (3.14159265359 : ℝ) ^ 4 :=
      pow_lt_pow_left₀ (by linarith) Real.pi_pos.le (by norm_num)
    constructor <;> norm_num at l2 u2 ⊢ <;> linarith
  · rw [z1]
    refine (hder.hasDerivWithinAt (s := Set.Iic 0)).congr ?_ ?_
    · intro u hu
      rcases lt_or_eq_of_le (Set.mem_Iic.1 hu) with h | h
      · simp only [h, if_true]
        exact (value_negative zeta u h).1
      · simp only [h, lt_irrefl, if_false, neg_zero, e0]
    · simp only [lt_irrefl, if_false, neg_zero, e0]

/-- Below the table, `m² ≤ -3000 T²`, the function is a straight line that rises for ever, although
the tabulated function oscillates. -/
theorem C116_outside (zeta : Nat → ℝ) (x : ℝ) (hx : x ≤ -3000) :
    bosonInterpolated zeta spline x 0
        = 215178 / 10 ^ 3 + 3816357189 / 10 ^ 9 * (-x - 3000) + 3533375127 / 10 ^ 15 ∧
      bosonInterpolated zeta spline x 1 = -(3816357189 / 10 ^ 9) := by
  have hv : Spec.rounded 3000 = 215178 / 10 ^ 3 := by
    have : Table.ordinates.getD 3000 0 = 215178000 := by decide +kernel
    rw [Spec.rounded, this]; norm_num
  obtain ⟨h0, h1⟩ := value_negative zeta x (by linarith)
  refine ⟨by rw [h0, right_line (-x) (by linarith), hv], ?_⟩
  rw [h1, neg_inj]
  rcases eq_or_lt_of_le (show (3000 : ℝ) ≤ -x by linarith) with h | h
  · rw [← h, slope_right]
  · have e : HasDerivAt (Spline.eval spl) (3816357189 / 10 ^ 9) (-x) := by
      have := (((hasDerivAt_id' (-x)).sub_const 3000).const_mul (3816357189 / 10 ^ 9 : ℝ)).const_add
        (Spec.rounded 3000)
      rw [mul_one] at this
      refine this.congr_of_eventuallyEq ?_
      filter_upwards [Ioi_mem_nhds h] with u hu
      exact right_line u (le_of_lt hu)
    exact (spl_derivative (-x)).unique e

theorem pair_ok (i : Nat) (hi : i < 3001) : pair i = .ok (-(i : ℝ), Spec.exact i) := by
  have hw : i < Table.pairOrdinates.length := by rw [pairOrdinates_length]; exact hi
  have ha : i < Table.pairAbscissae.length := by rw [pairAbscissae_length]; exact hi
  have h := pairAbscissae_get i hi
  rw [List.getElem?_eq_getElem ha, Option.some.injEq] at h
  simp only [pair, idx_of_lt ha, idx_of_lt hw, bind_ok, Spec.exact, List.getD,
    List.getElem?_eq_getElem hw, Option.getD_some, h]
  push_cast
  rfl

/-- The linear interpolation of the first version never reads outside its table: between two
neighbouring entries it returns the chord, below the table it continues the last chord. -/
theorem C116_legacy (x : ℝ) (hx : x < 0) :
    (∀ i : Nat, i < 3000 → -((i : ℝ) + 1) ≤ x → x ≤ -(i : ℝ) →
      legacyInterpolated x = .ok (Spec.exact i + (Spec.exact (i + 1) - Spec.exact i) * (-x - i))) ∧
    (x ≤ -3000 → legacyInterpolated x
      = .ok (Spec.exact 3000 + (Spec.exact 3000 - Spec.exact 2999) * (-x - 3000))) := by
  have hlast : 2999 ≤ -x → legacyInterpolated x
      = .ok (Spec.exact 2999 + (Spec.exact 3000 - Spec.exact 2999) * (-x - 2999)) := by
    intro h
    rw [legacyInterpolated, if_pos (by norm_num [negLine]; linarith)]
    simp only [negLine, pair_ok 2999 (by norm_num), pair_ok 3000 (by norm_num), bind_ok, Nat.reduceSub]
    congr 1
    push_cast
    ring
  refine ⟨fun i hi h1 h2 => ?_, fun h => ?_⟩
  · rcases le_or_gt 2999 (-x) with h | h
    · rw [hlast h]
      have hi2 : 2998 ≤ i := by
        have : (2998 : ℝ) ≤ i := by linarith
        exact_mod_cast this
      rcases (show i = 2998 ∨ i = 2999 by omega) with rfl | rfl
      · have : -x = 2999 := by push_cast at h1; linarith
        rw [this]
        congr 1
        push_cast
        ring
      · congr 1
    · rw [legacyInterpolated, if_neg (by norm_num [negLine]; linarith)]
      have hnn : 0 ≤ -x := by linarith
      rcases eq_or_lt_of_le h1 with he | hl
      · have hf : ⌊-x⌋₊ = i + 1 := by
          rw [← he, neg_neg]
          exact_mod_cast Nat.floor_natCast (R := ℝ) (i + 1)
        have hi2 : i + 1 < 2999 := by
          have : ((i + 1 : Nat) : ℝ) < 2999 := by push_cast; linarith
          exact_mod_cast this
        simp only [hf, pair_ok (i + 1) (by omega), pair_ok (i + 1 + 1) (by omega), bind_ok]
        congr 1
        rw [← he]
        push_cast
        ring
      · have hf : ⌊-x⌋₊ = i := by
          rw [Nat.floor_eq_iff hnn]
          constructor <;> linarith
        simp only [hf, pair_ok i (by omega), pair_ok (i + 1) (by omega), bind_ok]
        congr 1
        push_cast
        field_simp
        ring
  · rw [hlast (by linarith)]
    congr 1
    ring

/-- The potential of the first version for a negative squared mass is that interpolation with the
shift used for positive masses, in the units of the temperature, next to the zero temperature term. -/
theorem C116_legacy_value (cw : ℝ → ℝ) (m2 temp : ℝ) (hm : m2 < 0) (ht : 0 < temp) (i : Nat) (hi : i < 3000)
    (h1 : -((i : ℝ) + 1) * temp ^ 2 ≤ m2) (h2 : m2 ≤ -(i : ℝ) * temp ^ 2) :
    legacyNegative cw m2 temp = .ok (temp ^ 4 / (2 * Real.pi ^ 2) * (0.0063108787 +
      (Spec.exact i + (Spec.exact (i + 1) - Spec.exact i) * (-m2 / temp ^ 2 - i))) + cw (-m2)) := by
  have hp : 0 < temp * temp := mul_pos ht ht
  rw [legacyNegative, (C116_legacy (m2 / (temp * temp)) (div_neg_of_neg_of_pos hm hp)).1 i hi
    (by rw [le_div_iff₀ hp]; nlinarith) (by rw [div_le_iff₀ hp]; nlinarith)]
  simp only [bind_ok, bosonShift, abs_of_neg hm]
  congr 1
  norm_num
  field_simp
  ring

example (zeta : Nat → ℝ) : bosonInterpolated zeta spline (-5) 0 = -3.35103 + 0.000003533375127 := by
  have h := (C116_tabulated zeta 5 (by norm_num) (by norm_num)).1
  have : Table.ordinates.getD 5 0 = -3351030 := by decide +kernel
  rw [Spec.rounded, this] at h
  norm_num at h ⊢
  exact h

example : legacyInterpolated (-5 / 2) = .ok ((-3.222851734 - 3.428922383) / 2) := by
  have h := (C116_legacy (-5 / 2) (by norm_num)).1 2 (by norm_num) (by norm_num) (by norm_num)
  have e2 : Table.pairOrdinates.getD 2 0 = -32228517340 := by decide +kernel
  have e3 : Table.pairOrdinates.getD (2 + 1) 0 = -34289223830 := by decide +kernel
  rw [h, Spec.exact, Spec.exact, e2, e3]
  norm_num

example : ∃ (m2 temp : ℝ) (i : Nat), m2 < 0 ∧ 0 < temp ∧ i < 3000 ∧ -((i : ℝ) + 1) * temp ^ 2 ≤ m2 ∧
    m2 ≤ -(i : ℝ) * temp ^ 2 := ⟨-25000, 100, 2, by norm_num, by norm_num, by norm_num, by norm_num, by norm_num⟩

end Verif.Thermal.Negative
