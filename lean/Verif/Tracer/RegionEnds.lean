import Verif.Tracer.RegionProps
import Mathlib.Algebra.Order.Archimedean.Basic

/-!
# C52: the patching of gaps comes to an end
-/

namespace Verif.Tracer

set_option linter.unusedSectionVars false

open Spec Outcome

variable {P K : Type} [Field K] [LinearOrder K] [IsStrictOrderedRing K]

namespace Spec

/-- Some phase exists at temperature `t`. -/
def Covered (l : List (Phase P K)) (t : K) : Prop := ∃ p ∈ l, ExistsAt p t

/-- The temperature lies between the lowest and the highest temperature of the phases. -/
def Within (l : List (Phase P K)) (t : K) : Prop := (∃ p ∈ l, p.tLow ≤ t) ∧ ∃ p ∈ l, t ≤ p.tHigh

/-- The outcome of a patch at temperature `t`: no temperature loses its phases, every phase reaches into the
old range of temperatures, and if more than two minima are reported, then a phase exists at `t`. -/
def Patched (l : List (Phase P K)) (t : K) (r : List (Phase P K) × Nat) : Prop :=
  (∀ q ∈ r.1, Good q) ∧ (∀ x, Covered l x → Covered r.1 x) ∧
    (∀ q ∈ r.1, ∃ x, ExistsAt q x ∧ Within l x) ∧ (2 < r.2 → Covered r.1 t)

/-- No phase exists at a temperature within the range. -/
def Missing (l : List (Phase P K)) (t : K) : Prop := Within l t ∧ ¬ Covered l t

end Spec

/-! ### Lemmas -/

theorem within_mono {l r : List (Phase P K)} (hg : ∀ p ∈ l, Good p)
    (h : ∀ x, Covered l x → Covered r x) (t : K) (ht : Within l t) : Within r t := by
  obtain ⟨⟨p, hp, h1⟩, q, hq, h2⟩ := ht
  obtain ⟨p', hp', h3, _⟩ := h p.tLow ⟨p, hp, le_refl _, (good_range p (hg p hp)).le⟩
  obtain ⟨q', hq', _, h4⟩ := h q.tHigh ⟨q, hq, (good_range q (hg q hq)).le, le_refl _⟩
  exact ⟨⟨p', hp', h3.trans h1⟩, q', hq', h2.trans h4⟩

theorem missing_mono {l r : List (Phase P K)} (h : ∀ x, Covered l x → Covered r x)
    (hr : ∀ q ∈ r, ∃ x, ExistsAt q x ∧ Within l x) (t : K) (ht : Missing r t) : Missing l t := by
  obtain ⟨⟨⟨p, hp, h1⟩, q, hq, h2⟩, h3⟩ := ht
  refine ⟨?_, fun hc => h3 (h t hc)⟩
  have h4 : p.tHigh < t := by
    by_contra hc
    exact h3 ⟨p, hp, h1, not_lt.1 hc⟩
  have h5 : t < q.tLow := by
    by_contra hc
    exact h3 ⟨q, hq, not_lt.1 hc, h2⟩
  obtain ⟨x, hx, ⟨a, ha, hax⟩, _⟩ := hr p hp
  obtain ⟨y, hy, _, b, hb, hby⟩ := hr q hq
  exact ⟨⟨a, ha, (hax.trans hx.2).trans h4.le⟩, b, hb, (h5.le.trans hy.1).trans hby⟩

/-- Points of an interval of length `k * d` with distances of at least `d` are at most `k`. -/
theorem packing (d : K) (k : Nat) (a : K) (ms : List K)
    (hp : ms.Pairwise fun x y => d ≤ |x - y|) (hr : ∀ x ∈ ms, a ≤ x ∧ x < a + k * d) :
    ms.length ≤ k := by
  induction k generalizing a ms with
  | zero =>
    cases ms with
    | nil => rfl
    | cons x ms =>
      have := hr x (by simp)
      simp only [Nat.cast_zero, zero_mul, add_zero] at this
      exact absurd this.2 (not_lt.2 this.1)
  | succ k ih =>
    have h1 : (ms.filter fun x => decide (x < a + d)).length ≤ 1 := by
      have hp' := hp.filter fun x => decide (x < a + d)
      match hl : ms.filter fun x => decide (x < a + d) with
      | [] => simp
      | [_] => simp
      | x :: y :: l =>
        rw [hl] at hp'
        have hx : x ∈ ms.filter fun x => decide (x < a + d) := by rw [hl]; simp
        have hy : y ∈ ms.filter fun x => decide (x < a + d) := by rw [hl]; simp
        rw [List.mem_filter, decide_eq_true_iff] at hx hy
        have h := (List.pairwise_cons.1 hp').1 y (by simp)
        have h2 := (hr x hx.1).1
        have h3 := (hr y hy.1).1
        have : |x - y| < d := abs_lt.2 ⟨by linarith [hy.2], by linarith [hx.2]⟩
        exact absurd h (not_le.2 this)
    have h2 : (ms.filter fun x => !decide (x < a + d)).length ≤ k := by
      apply ih (a + d) _ (hp.filter _)
      intro x hx
      rw [List.mem_filter] at hx
      have h3 := hr x hx.1
      have h4 : ¬ x < a + d := by simpa using hx.2
      refine ⟨not_lt.1 h4, ?_⟩
      have h5 := h3.2
      push_cast at h5
      linarith
    have h3 := List.length_eq_length_filter_add (l := ms) (fun x => decide (x < a + d))
    omega

/-- The points around the middle of a wide gap are all missing. -/
theorem middle_missing (l : List (Phase P K)) (hg : ∀ p ∈ l, Good p) (i : K × Int × K)
    (hi : i ∈ intervals l) (hn : i.2.1 ≤ 0) (x : K) (h1 : i.2.2 < x) (h2 : x < i.1) : Missing l x := by
  obtain ⟨h3, ⟨p, hp, ep⟩, ⟨q, hq, eq⟩, h4⟩ := C52_count l hg i hi
  obtain ⟨_, h6⟩ := h4 x h1 h2
  have h7 := good_range p (hg p hp)
  have h8 := good_range q (hg q hq)
  refine ⟨⟨⟨q, hq, ?_⟩, p, hp, ?_⟩, ?_⟩
  · rcases eq with e | e <;> linarith
  · rcases ep with e | e <;> linarith
  · rintro ⟨r, hr, h9, h10⟩
    have := phasesAt_pos l r hr x h9 h10
    omega

/-- What a call leaves behind. -/
theorem regionLoop_ends (patch : List (Phase P K) → K → List (Phase P K) × Nat) (mode : Int)
    (hpatch : ∀ l t, (∀ p ∈ l, Good p) → Within l t → Patched l t (patch l t))
    (again : VState P K → Option (VState P K)) (l₀ : List (Phase P K)) (hg₀ : ∀ p ∈ l₀, Good p)
    (hagain : ∀ (s : VState P K) (i : K × Int × K), i ∈ intervals l₀ → i.2.1 ≤ 0 →
      i.2.2 + 1 / 10 ^ 6 < i.1 → (∀ p ∈ s.phases, Good p) → (∀ x, Covered l₀ x → Covered s.phases x) →
      (∀ x, Missing s.phases x → Missing l₀ x) → Covered s.phases ((i.1 + i.2.2) / 2) →
      ∃ s', again s = some s' ∧ (∀ p ∈ s'.phases, Good p) ∧
        (∀ x, Covered s.phases x → Covered s'.phases x) ∧
        (∀ x, Missing s'.phases x → Missing s.phases x))
    (is : List (K × Int × K)) (his : ∀ i ∈ is, i ∈ intervals l₀) (s : VState P K)
    (hg : ∀ p ∈ s.phases, Good p) (hc : ∀ x, Covered l₀ x → Covered s.phases x)
    (hm : ∀ x, Missing s.phases x → Missing l₀ x) :
    ∃ s', regionLoop patch mode again is s = some s' ∧ (∀ p ∈ s'.phases, Good p) ∧
      (∀ x, Covered s.phases x → Covered s'.phases x) ∧
      (∀ x, Missing s'.phases x → Missing s.phases x) := by
  induction is generalizing s with
  | nil => exact ⟨s, rfl, hg, fun _ h => h, fun _ h => h⟩
  | cons i is ih =>
    obtain ⟨th, n, tl⟩ := i
    have hi := his _ (List.mem_cons_self ..)
    have ih := ih (fun j hj => his j (List.mem_cons_of_mem _ hj))
    rw [regionLoop]
    split
    · exact ih _ hg hc hm
    · split
      · rename_i hn
        split
        · rename_i hw
          have hlt := (C52_count l₀ hg₀ _ hi).1
          dsimp only at hlt
          have hw0 : Missing l₀ ((th + tl) / 2) :=
            middle_missing l₀ hg₀ _ hi hn _ (by dsimp only; linarith) (by dsimp only; linarith)
          have hw1 : Within s.phases ((th + tl) / 2) := within_mono hg₀ hc _ hw0.1
          obtain ⟨p1, p2, p3, p4⟩ := hpatch s.phases _ hg hw1
          have p5 := missing_mono p2 p3
          dsimp only
          split
          · rename_i h2
            obtain ⟨s1, e1, a1, a2, a3⟩ := hagain
              { s with phases := (patch s.phases ((th + tl) / 2)).1, vac := .success } _ hi hn hw.1 p1
              (fun x hx => p2 x (hc x hx)) (fun x hx => hm x (p5 x hx)) (p4 h2)
            rw [e1]
            obtain ⟨s2, e2, b1, b2, b3⟩ := ih s1 a1 (fun x hx => a2 x (p2 x (hc x hx)))
              (fun x hx => hm x (p5 x (a3 x hx)))
            exact ⟨s2, e2, b1, fun x hx => b2 x (a2 x (p2 x hx)), fun x hx => p5 x (a3 x (b3 x hx))⟩
          · obtain ⟨s2, e2, b1, b2, b3⟩ := ih
              { s with phases := (patch s.phases ((th + tl) / 2)).1, vac := .noCoverage } p1
              (fun x hx => p2 x (hc x hx)) (fun x hx => hm x (p5 x hx))
            exact ⟨s2, e2, b1, fun x hx => b2 x (p2 x hx), fun x hx => p5 x (b3 x hx)⟩
        · exact ih _ hg hc hm
      · exact ih _ hg hc hm

/-- The depth of the recursion: `ms` are the temperatures patched so far on the way down. -/
theorem ends_of (patch : List (Phase P K) → K → List (Phase P K) × Nat) (mode : Int)
    (hpatch : ∀ l t, (∀ p ∈ l, Good p) → Within l t → Patched l t (patch l t))
    (a : K) (N : Nat) (n : Nat) (s : VState P K) (ms : List K) (hn : N ≤ ms.length + n)
    (hg : ∀ p ∈ s.phases, Good p)
    (hr : ∀ x, Missing s.phases x → a ≤ x ∧ x < a + N * (1 / (2 * 10 ^ 6)))
    (hms : ∀ x ∈ ms, a ≤ x ∧ x < a + N * (1 / (2 * 10 ^ 6)))
    (hp : ms.Pairwise fun x y => 1 / (2 * 10 ^ 6) ≤ |x - y|) (hcov : ∀ x ∈ ms, ¬ Missing s.phases x) :
    ∃ s', setCoexRegion patch mode (n + 1) s = some s' ∧ (∀ p ∈ s'.phases, Good p) ∧
      (∀ x, Covered s.phases x → Covered s'.phases x) ∧
      (∀ x, Missing s'.phases x → Missing s.phases x) := by
  induction n generalizing s ms with
  | zero =>
    rw [setCoexRegion]
    split
    · obtain ⟨s', e, h⟩ := regionLoop_ends patch mode hpatch (setCoexRegion patch mode 0) s.phases hg
        (by
          intro s1 i hi h0 hw _ _ _ _
          exfalso
          have hm : ∀ x, |x - (i.1 + i.2.2) / 2| < 1 / (2 * 10 ^ 6) → Missing s.phases x := by
            intro x hx
            rw [abs_lt] at hx
            norm_num at hx hw
            exact middle_missing s.phases hg i hi h0 x (by linarith [hx.1]) (by linarith [hx.2])
          have := packing (1 / (2 * 10 ^ 6) : K) N a ((i.1 + i.2.2) / 2 :: ms)
            (List.pairwise_cons.2 ⟨fun y hy => not_lt.1 fun hlt => hcov y hy
              (hm y (by rw [abs_sub_comm]; exact hlt)), hp⟩)
            (by
              intro x hx
              rcases List.mem_cons.1 hx with rfl | hx
              · exact hr _ (hm _ (by rw [sub_self, abs_zero]; positivity))
              · exact hms x hx)
          simp only [List.length_cons] at this
          omega)
        (intervals s.phases) (fun i hi => hi) s hg (fun _ h => h) (fun _ h => h)
      refine ⟨_, by dsimp only; rw [e]; rfl, ?_⟩
      dsimp only
      split <;> exact h
    · exact ⟨s, rfl, hg, fun _ h => h, fun _ h => h⟩
  | succ n ih =>
    rw [setCoexRegion]
    split
    · obtain ⟨s', e, h⟩ := regionLoop_ends patch mode hpatch (setCoexRegion patch mode (n + 1)) s.phases hg
        (by
          intro s1 i hi h0 hw g1 c1 m1 cov
          have hm : ∀ x, |x - (i.1 + i.2.2) / 2| < 1 / (2 * 10 ^ 6) → Missing s.phases x := by
            intro x hx
            rw [abs_lt] at hx
            norm_num at hx hw
            exact middle_missing s.phases hg i hi h0 x (by linarith [hx.1]) (by linarith [hx.2])
          refine ih s1 ((i.1 + i.2.2) / 2 :: ms) (by simp only [List.length_cons]; omega) g1
            (fun x hx => hr x (m1 x hx)) ?_ ?_ ?_
          · intro x hx
            rcases List.mem_cons.1 hx with rfl | hx
            · exact hr _ (hm _ (by rw [sub_self, abs_zero]; positivity))
            · exact hms x hx
          · exact List.pairwise_cons.2 ⟨fun y hy => not_lt.1 fun hlt => hcov y hy
              (hm y (by rw [abs_sub_comm]; exact hlt)), hp⟩
          · intro x hx hmx
            rcases List.mem_cons.1 hx with rfl | hx
            · exact hmx.2 cov
            · exact hcov x hx (m1 x hmx))
        (intervals s.phases) (fun i hi => hi) s hg (fun _ h => h) (fun _ h => h)
      refine ⟨_, by dsimp only; rw [e]; rfl, ?_⟩
      dsimp only
      split <;> exact h
    · exact ⟨s, rfl, hg, fun _ h => h, fun _ h => h⟩

theorem exists_bounds (l : List (Phase P K)) : ∃ a b : K, ∀ p ∈ l, a ≤ p.tLow ∧ p.tHigh ≤ b := by
  induction l with
  | nil => exact ⟨0, 0, by simp⟩
  | cons p l ih =>
    obtain ⟨a, b, h⟩ := ih
    refine ⟨min a p.tLow, max b p.tHigh, fun q hq => ?_⟩
    rcases List.mem_cons.1 hq with rfl | hq
    · exact ⟨min_le_right _ _, le_max_right _ _⟩
    · exact ⟨(min_le_left _ _).trans (h q hq).1, (h q hq).2.trans (le_max_left _ _)⟩

theorem mem_range_of_good (q : Phase P K) (hq : Good q) (x : Minimum P K) (hx : x ∈ q.mins) :
    ExistsAt q x.temp := by
  obtain ⟨ho, ⟨a, b, ha, hb, e1, e2⟩, _⟩ := hq
  rw [Ordered] at ho
  rw [ExistsAt, e1, e2]
  constructor
  · obtain ⟨l, hl⟩ := List.head?_eq_some_iff.1 ha
    rw [hl] at ho hx
    rcases List.mem_cons.1 hx with rfl | hx
    · exact le_refl _
    · exact ((List.pairwise_cons.1 ho).1 x hx).le
  · obtain ⟨l, hl⟩ := List.getLast?_eq_some_iff.1 hb
    rw [hl] at ho hx
    rcases List.mem_append.1 hx with hx | hx
    · exact ((List.pairwise_append.1 ho).2.2 x hx b (by simp)).le
    · rw [List.mem_singleton.1 hx]

theorem mem_grown {p q : Phase P K} (h : Grown p q) (x : Minimum P K) (hx : x ∈ p.mins) :
    ∃ y ∈ q.mins, y.temp = x.temp := by
  obtain ⟨y, hy, e⟩ := List.mem_map.1 (h.2 _ (List.mem_map_of_mem hx))
  exact ⟨y, hy, congrArg (fun z => z.2.1) e⟩

theorem grown_range {p q : Phase P K} (hp : RangeExact p) (hq : Good q) (h : Grown p q) :
    q.tLow ≤ p.tLow ∧ p.tHigh ≤ q.tHigh := by
  obtain ⟨a, b, ha, hb, e1, e2⟩ := hp
  obtain ⟨y, hy, f1⟩ := mem_grown h a (List.mem_of_head? ha)
  obtain ⟨z, hz, f2⟩ := mem_grown h b (List.mem_of_getLast? hb)
  rw [e1, e2, ← f1, ← f2]
  exact ⟨(mem_range_of_good q hq y hy).1, (mem_range_of_good q hq z hz).2⟩

/-! ### C52 -/

/-- C52: the patching of gaps ends.  Whatever phases were traced, and whichever way the patches turn out, the
computation of the regions returns after finitely many recursive calls; the phases are well formed, no
temperature has lost its phases, no new temperature is missing, and either no gap is left or the status says
so. -/
theorem C52_ends [Archimedean K] (patch : List (Phase P K) → K → List (Phase P K) × Nat) (mode : Int)
    (hgood : ∀ l t, (∀ p ∈ l, Good p) → ∀ p ∈ (patch l t).1, Good p)
    (hpatch : ∀ l t, (∀ p ∈ l, Good p) → Within l t → Patched l t (patch l t))
    (s : VState P K) (hg : ∀ p ∈ s.phases, Good p) :
    ∃ fuel s', setCoexRegion patch mode fuel s = some s' ∧ (∀ p ∈ s'.phases, Good p) ∧
      (∀ t, Covered s.phases t → Covered s'.phases t) ∧
      (∀ t, Missing s'.phases t → Missing s.phases t) ∧
      (s'.vac = .noCoverage ∨ ¬ Gap s'.phases) := by
  obtain ⟨a, b, hab⟩ := exists_bounds s.phases
  obtain ⟨N, hN⟩ := exists_nat_gt ((b - a) * (2 * 10 ^ 6))
  have hN' : b - a < N * (1 / (2 * 10 ^ 6)) := by
    rw [mul_one_div, lt_div_iff₀ (by positivity)]
    exact hN
  obtain ⟨s', e, h1, h2, h3⟩ := ends_of patch mode hpatch a N N s [] (by simp) hg
    (by
      rintro x ⟨⟨⟨p, hp, h1⟩, q, hq, h2⟩, _⟩
      exact ⟨(hab p hp).1.trans h1, by linarith [(hab q hq).2]⟩)
    (by simp) (by simp) (by simp)
  exact ⟨N + 1, s', e, h1, h2, h3, (C52_covered_partial patch mode hgood (N + 1) s s' hg e).2⟩

/-- C52: registering the phase that starts at the middle of a gap is such a patch, if the phase, unless
empty, has a minimum there, and a phase that is thrown away has at most two minima. -/
theorem C52_patched (track track3 : P → K → K → List (Minimum P K)) (dist : P → P → K)
    (l r : List (Phase P K)) (ph : Phase P K) (t : K) (n : Nat)
    (hph : ph.mins ≠ [] → Ordered ph ∧ RangeExact ph ∧ ∃ m ∈ ph.mins, m.temp = t)
    (hg : ∀ p ∈ l, Good p) (hw : Within l t)
    (h : addPhase track track3 dist l ph = ok r)
    (hn : (ph.mins.length < 2 ∨ ∃ a b, ph.mins = [a, b] ∧ track3 a.point a.temp b.temp = []) → n ≤ 2) :
    Patched l t (r, n) := by
  have hself : ∀ q ∈ l, ∃ x, ExistsAt q x ∧ Within l x := fun q hq =>
    have := good_range q (hg q hq)
    ⟨q.tLow, ⟨le_refl _, this.le⟩, ⟨q, hq, le_refl _⟩, q, hq, this.le⟩
  have dropped : n ≤ 2 → Patched l t (l, n) := fun h2 =>
    ⟨hg, fun _ h => h, hself, fun h3 => absurd h3 (not_lt.2 h2)⟩
  have kept : 2 ≤ ph.mins.length → (∀ q ∈ r, Good q) →
      (∃ old new, r = old ++ new ∧ List.Forall₂ Grown l old ∧
      ((∃ q, new = [q] ∧ Grown ph q) ∨
        (new = [] ∧ ∃ q ∈ old, ∀ m ∈ ph.mins, ∃ x ∈ q.mins, x.temp = m.temp))) → Patched l t (r, n) := by
    rintro hl hgr ⟨old, new, rfl, h2, h3⟩
    obtain ⟨_, hrange, m, hm, rfl⟩ := hph (by intro e; rw [e] at hl; simp at hl)
    have hfor : ∀ p ∈ l, ∃ q ∈ old, Grown p q := by
      intro p hp
      obtain ⟨i, hi, rfl⟩ := List.getElem_of_mem hp
      have hi' : i < old.length := h2.length_eq ▸ hi
      exact ⟨old[i], List.getElem_mem _, h2.get hi hi'⟩
    have hback : ∀ q ∈ old, ∃ p ∈ l, Grown p q := by
      intro q hq
      obtain ⟨i, hi, rfl⟩ := List.getElem_of_mem hq
      have hi' : i < l.length := h2.length_eq.symm ▸ hi
      exact ⟨l[i], List.getElem_mem _, h2.get hi' hi⟩
    have hcov : Covered (old ++ new) m.temp := by
      rcases h3 with ⟨q, rfl, hq⟩ | ⟨rfl, q, hq, hx⟩
      · obtain ⟨y, hy, e⟩ := mem_grown hq m hm
        exact ⟨q, by simp, e ▸ mem_range_of_good q (hgr q (by simp)) y hy⟩
      · obtain ⟨y, hy, e⟩ := hx m hm
        exact ⟨q, by simp [hq], e ▸ mem_range_of_good q (hgr q (by simp [hq])) y hy⟩
    refine ⟨hgr, ?_, ?_, fun _ => hcov⟩
    · rintro x ⟨p, hp, h4, h5⟩
      obtain ⟨q, hq, h6⟩ := hfor p hp
      have h7 := grown_range (hg p hp).2.1 (hgr q (by simp [hq])) h6
      exact ⟨q, by simp [hq], h7.1.trans h4, h5.trans h7.2⟩
    · intro q hq
      rcases List.mem_append.1 hq with hq' | hq'
      · obtain ⟨p, hp, h6⟩ := hback q hq'
        have h7 := grown_range (hg p hp).2.1 (hgr q hq) h6
        have h8 := good_range p (hg p hp)
        exact ⟨p.tLow, ⟨h7.1, h8.le.trans h7.2⟩, ⟨p, hp, le_refl _⟩, p, hp, h8.le⟩
      · rcases h3 with ⟨q', rfl, hq''⟩ | ⟨rfl, _⟩
        · obtain rfl := List.mem_singleton.1 hq'
          obtain ⟨y, hy, e⟩ := mem_grown hq'' m hm
          exact ⟨m.temp, e ▸ mem_range_of_good q (hgr q hq) y hy, hw⟩
        · cases hq'
  have hreg := h
  rw [addPhase] at hreg
  match hp : ph.mins with
  | [] => rw [hp] at hreg; cases hreg; exact dropped (hn (Or.inl (by rw [hp]; simp)))
  | [_] => rw [hp] at hreg; cases hreg; exact dropped (hn (Or.inl (by rw [hp]; simp)))
  | [a, b] =>
    rw [hp] at hreg
    dsimp only at hreg
    have hl : 2 ≤ ph.mins.length := by rw [hp]; simp
    split at hreg
    · obtain ⟨ho, hr, _⟩ := hph (by rw [hp]; simp)
      obtain ⟨h1, old, new, h2, h3, h4⟩ := register_good track dist l r _
        (addAll_ordered _ _ ho) (addAll_range _ _ ho hr) (hl.trans (addAll_length _ _)) hg hreg
      refine kept hl h1 ⟨old, new, h2, h3, ?_⟩
      rcases h4 with ⟨q, e, hq⟩ | ⟨e, q, hq, hm⟩
      · exact Or.inl ⟨q, e, grown_trans (addAll_grown ph _) hq⟩
      · refine Or.inr ⟨e, q, hq, fun m hm' => ?_⟩
        obtain ⟨x, hx, e⟩ := addAll_has ph (track3 a.point a.temp b.temp) m (Or.inr ⟨m, hm', rfl⟩)
        obtain ⟨y, hy, e'⟩ := hm x hx
        exact ⟨y, hy, e'.trans e⟩
    · rename_i h0
      cases hreg
      exact dropped (hn (Or.inr ⟨a, b, hp, by simpa using h0⟩))
  | a :: b :: c :: m =>
    obtain ⟨ho, hr, _⟩ := hph (by rw [hp]; simp)
    rcases C51_registered track track3 dist l r ph (fun hne => ⟨(hph hne).1, (hph hne).2.1⟩) hg h with
      ⟨h1, ⟨_, h2⟩ | ⟨old, new, h2, h3, h4, h5⟩⟩
    · rw [hp] at h2; simp at h2
    · exact kept h4 h1 ⟨old, new, h2, h3, h5⟩

/-- C52: the condition on the patches is needed: a tracer that reports more than two minima and none of them
in the gap is asked without end. -/
theorem C52_endless_fails (mode : Int) (hm : mode ≠ 0) :
    let p (a b : ℚ) : Phase ℚ ℚ := ⟨0, a, b, [⟨0, a, 0, -1⟩, ⟨0, b, 0, 1⟩]⟩
    ∀ (fuel : Nat) (vac : Tracing) (coex : CoexPair),
      setCoexRegion (fun l _ => (l, 3)) mode fuel ⟨[p 0 50, p 100 200], vac, coex⟩ = none := by
  intro p fuel
  have hi : intervals [p 0 50, p 100 200] = [(200, 1, 100), (100, 0, 50), (50, 1, 0)] := by
    decide +kernel
  induction fuel with
  | zero => intros; rfl
  | succ fuel ih =>
    intro vac coex
    rw [setCoexRegion]
    simp only [hi, List.length_cons, Nat.zero_lt_succ, gt_iff_lt, if_true, Option.map_eq_none_iff]
    rw [regionLoop, if_neg (by norm_num), if_neg (by norm_num), regionLoop, if_neg (by norm_num),
      if_pos (by norm_num), if_pos ⟨by norm_num, hm⟩]
    simp only [ih, gt_iff_lt, show (2 : Nat) < 3 from by norm_num, if_true, Option.bind_none]

/-- The hypotheses of `C52_ends`: a tracer that finds the minimum ten GeV around the temperature. -/
example :
    let q (t : ℚ) : Phase ℚ ℚ :=
      ⟨0, t - 10, t + 10, [⟨0, t - 10, 0, -1⟩, ⟨0, t, 0, 0⟩, ⟨0, t + 10, 0, 1⟩]⟩
    let patch (l : List (Phase ℚ ℚ)) (t : ℚ) := (l ++ [q t], 3)
    (∀ l t, (∀ p ∈ l, Good p) → ∀ p ∈ (patch l t).1, Good p) ∧
      ∀ l t, (∀ p ∈ l, Good p) → Within l t → Patched l t (patch l t) := by
  intro q patch
  have hq : ∀ t, Good (q t) := by
    intro t
    refine ⟨?_, ⟨_, _, rfl, rfl, rfl, rfl⟩, by simp [q], ⟨_, rfl, rfl⟩, _, rfl, rfl⟩
    simp only [Ordered, q, List.pairwise_cons, List.mem_cons, forall_eq_or_imp, List.not_mem_nil,
      false_imp_iff, implies_true, and_true, List.Pairwise.nil]
    refine ⟨⟨?_, ?_⟩, ?_⟩ <;> linarith
  have h1 : ∀ l t, (∀ p ∈ l, Good p) → ∀ p ∈ (patch l t).1, Good p := by
    intro l t hg p hp
    rcases List.mem_append.1 hp with hp | hp
    · exact hg p hp
    · rw [List.mem_singleton.1 hp]; exact hq t
  have hx : ∀ t, ExistsAt (q t) t := fun t => ⟨by simp [q], by simp [q]⟩
  refine ⟨h1, fun l t hg hw => ⟨h1 l t hg, ?_, ?_, fun _ => ⟨q t, by simp [patch], hx t⟩⟩⟩
  · rintro x ⟨p, hp, h⟩
    exact ⟨p, by simp [patch, hp], h⟩
  · intro p hp
    rcases List.mem_append.1 hp with hp | hp
    · have := good_range p (hg p hp)
      exact ⟨p.tLow, ⟨le_refl _, this.le⟩, ⟨p, hp, le_refl _⟩, p, hp, this.le⟩
    · rw [List.mem_singleton.1 hp]
      exact ⟨t, hx t, hw⟩

end Verif.Tracer
