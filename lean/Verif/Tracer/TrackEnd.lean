import Verif.Tracer.TrackProps
import Mathlib.Tactic.NormNum
import Mathlib.Algebra.Order.Ring.Rat

/-!
# C50: does the tracking end, and where
-/

namespace Verif.Tracer

set_option linter.unusedSectionVars false

variable {P K : Type} [Field K] [LinearOrder K] [IsStrictOrderedRing K]

/-- One round at a temperature where the search fails. -/
theorem trackRound_fail (e : Env P K) (unp : Bool) (iT fT idT : K) (s : TState P K)
    (h : ¬ |s.dT| < 1 / 10 ^ 5) (hb : e.bad (e.locate s.point s.t) s.t = true ∨
      e.dist (e.locate s.point s.t) s.point > e.dim) (hi : iT ≠ s.t) :
    trackRound e unp iT fT idT s = advance fT { s with t := s.t - s.dT, dT := s.dT / 10 } := by
  unfold trackRound
  dsimp only
  rw [if_neg h, if_pos hb, if_neg hi]

/-- One round at a temperature where the search succeeds: the round appends the minimum and advances.  Only
the parts of the state that matter for the temperatures are given. -/
theorem trackRound_ok (e : Env P K) (unp : Bool) (iT fT idT : K) (s : TState P K)
    (h : ¬ |s.dT| < 1 / 10 ^ 5) (hb : e.bad (e.locate s.point s.t) s.t = false)
    (hd : e.dist (e.locate s.point s.t) s.point ≤ e.dim)
    (hn : unp = true ∨ e.neg (e.locate s.point s.t) s.t = false) (hm : s.isInMin ≠ 1) :
    ∃ s', trackRound e unp iT fT idT s = advance fT s' ∧ s'.t = s.t ∧
      s'.dT = nextStep e.dim idT s.dT (e.dist (e.locate s.point s.t) s.point) ∧
      s'.point = e.locate s.point s.t ∧ s'.isInMin ≠ 1 ∧
      s'.mins = s.mins ++ [⟨e.locate s.point s.t, s.t, e.pot (e.locate s.point s.t) s.t, 0⟩] := by
  unfold trackRound
  dsimp only
  rw [if_neg h, if_neg (by push Not; exact ⟨by simp [hb], hd⟩)]
  by_cases hu : unp = true
  · rw [if_pos hu]
    exact ⟨_, rfl, rfl, rfl, rfl, hm, rfl⟩
  · have hn : e.neg (e.locate s.point s.t) s.t = false := hn.resolve_left hu
    rw [if_neg hu, if_neg (by simp [hn]), if_neg hm]
    have hg := noteGlob_same e (e.locate s.point s.t) s.t s
    refine ⟨_, rfl, hg.1, ?_, rfl, by simp, ?_⟩
    · dsimp only; rw [hg.2.1]
    · dsimp only; rw [hg.2.2.1, hg.1]

/-! ### A phase that ends within the last step is tracked for ever -/

theorem step_guard (fT D : K) (hD : D ≠ 0) (x : K) (hx : 0 ≤ x) (y : K) (hy : 0 < y) :
    (fT - (fT - x * D)) / (y * D) ≥ 0 := by
  have : (fT - (fT - x * D)) / (y * D) = x / y := by
    have := hy.ne'
    field_simp
    ring
  rw [this]
  positivity

/-- The cycle: at the final temperature the search fails, nine tenths of a step before it succeeds with
nothing moving. -/
theorem track_cycle (e : Env P K) (unp : Bool) (iT fT D : K) (p : P)
    (hD : 1 / 10 ^ 4 ≤ |D|) (hdim : 0 ≤ e.dim) (hi : iT ≠ fT)
    (hfail : e.bad (e.locate p fT) fT = true ∨ e.dist (e.locate p fT) p > e.dim)
    (hloc : e.locate p (fT - 9 / 10 * D) = p) (hdist : e.dist p p = 0)
    (hok : e.bad p (fT - 9 / 10 * D) = false)
    (hn : unp = true ∨ e.neg p (fT - 9 / 10 * D) = false) (fuel : Nat) :
    ∀ s : TState P K, s.isInMin ≠ 1 → s.point = p →
      (s.t = fT ∧ s.dT = D ∨ s.t = fT - 9 / 10 * D ∧ s.dT = D / 10) →
      trackLoop e unp iT fT D fuel s = none := by
  have hD0 : D ≠ 0 := by
    rintro rfl
    rw [abs_zero] at hD
    norm_num at hD
  have hDp : 0 < |D| := abs_pos.2 hD0
  induction fuel with
  | zero => intros; rfl
  | succ fuel ih =>
    intro s hm hp hs
    rw [trackLoop]
    dsimp only
    rcases hs with ⟨ht, hd⟩ | ⟨ht, hd⟩
    · -- the failing round
      rw [if_pos (by rw [ht, sub_self, zero_div])]
      rw [trackRound_fail e unp iT fT D s
        (by rw [hd, not_lt]; exact le_trans (by norm_num) hD) (by rw [hp, ht]; exact hfail)
        (by rw [ht]; exact hi)]
      unfold advance
      dsimp only
      rw [ht, hd]
      rw [if_neg (by intro h; apply hD0; linarith), if_pos]
      · refine ih _ hm hp (Or.inr ⟨?_, rfl⟩)
        dsimp only; ring
      · have e1 : fT - (fT - D) = D := by ring
        rw [e1, abs_div, abs_of_pos (by norm_num : (0 : K) < 10)]
        linarith
    · -- the successful round
      have hg : (fT - s.t) / s.dT ≥ 0 := by
        rw [ht, hd, show D / 10 = 1 / 10 * D by ring]
        exact step_guard fT D hD0 (9 / 10) (by norm_num) (1 / 10) (by norm_num)
      rw [if_pos hg]
      obtain ⟨s', h1, h2, h3, h4, h5, h6⟩ := trackRound_ok e unp iT fT D s
        (by
          rw [hd, not_lt, abs_div, abs_of_pos (by norm_num : (0 : K) < 10)]
          rw [le_div_iff₀ (by norm_num)]
          refine le_trans ?_ hD
          norm_num)
        (by rw [hp, ht, hloc]; exact hok) (by rw [hp, ht, hloc, hdist]; exact hdim)
        (by rw [hp, ht, hloc]; exact hn) hm
      rw [h1]
      have h3' : s'.dT = D := by
        rw [h3, hp, ht, hloc, hdist]
        simp [nextStep]
      unfold advance
      rw [h2, h3', ht]
      rw [if_neg (by intro h; apply hD0; linarith), if_neg]
      · refine ih _ h5 ?_ (Or.inl ⟨rfl, rfl⟩)
        show s'.point = p
        rw [h4, hp, ht, hloc]
      · have e1 : fT - (fT - 9 / 10 * D) = 9 / 10 * D := by ring
        rw [e1, abs_mul, abs_of_pos (by norm_num : (0 : K) < 9 / 10), not_lt]
        linarith

/-- C50 is false of the code: if the minimum is found one step before the final temperature and still a
tenth of a step further (having moved by no more than a twentieth of the allowed distance), but not at the
final temperature, the tracking never ends.  The call made by `Phase::Get` is of this form. -/
theorem C50_never_ends (e : Env P K) (unp : Bool) (fT D : K) (start p q : P)
    (hD : 1 / 10 ^ 4 ≤ |D|) (hdim : 0 ≤ e.dim)
    -- the minimum one step before the final temperature
    (hp : e.locate start (fT - D) = p) (hpok : e.bad p (fT - D) = false)
    (hpd : 0 ≤ e.dist p start ∧ e.dist p start ≤ e.dim / 2)
    (hpn : unp = true ∨ e.neg p (fT - D) = false)
    -- the minimum a tenth of a step later
    (hq : e.locate p (fT - 9 / 10 * D) = q) (hqok : e.bad q (fT - 9 / 10 * D) = false)
    (hqd : 0 ≤ e.dist q p ∧ e.dist q p ≤ e.dim / 20)
    (hqn : unp = true ∨ e.neg q (fT - 9 / 10 * D) = false)
    (hqq : e.locate q (fT - 9 / 10 * D) = q) (hqq0 : e.dist q q = 0)
    -- there is no minimum at the final temperature
    (hpf : e.bad (e.locate p fT) fT = true ∨ e.dist (e.locate p fT) p > e.dim)
    (hqf : e.bad (e.locate q fT) fT = true ∨ e.dist (e.locate q fT) q > e.dim) (fuel : Nat) :
    trackPhase e unp fuel start (fT - D) fT D = none := by
  have hD0 : D ≠ 0 := by
    rintro rfl
    rw [abs_zero] at hD
    norm_num at hD
  have hDp : 0 < |D| := abs_pos.2 hD0
  have hi : fT - D ≠ fT := by intro h; apply hD0; linarith
  unfold trackPhase
  dsimp only
  have e0 : (fT - (fT - D)) / D = 1 := by
    have : fT - (fT - D) = D := by ring
    rw [this, div_self hD0]
  rw [e0, if_neg (by norm_num)]
  -- first round
  rcases fuel with _ | fuel
  · rfl
  rw [trackLoop]
  dsimp only
  rw [if_pos (by rw [e0]; norm_num)]
  obtain ⟨s1, a1, a2, a3, a4, a5, _⟩ := trackRound_ok e unp (fT - D) fT D
    { t := fT - D, dT := D, point := start, isInMin := 0, mins := [] }
    (by rw [not_lt]; exact le_trans (by norm_num) hD) (by rw [hp]; exact hpok)
    (by rw [hp]; linarith [hpd.2]) (by rw [hp]; exact hpn) (by simp)
  rw [a1]
  rw [hp] at a3 a4
  have a3' : s1.dT = D := by
    rw [a3]; exact nextStep_reset _ _ _ _ hpd.1 (mul_le_mul_of_nonneg_left hpd.2 hDp.le)
  unfold advance
  rw [a2, a3', if_neg hi, if_neg (by rw [show fT - (fT - D) = D by ring]; exact lt_irrefl _)]
  dsimp only
  -- second round: fails
  rcases fuel with _ | fuel
  · rfl
  rw [trackLoop]
  dsimp only
  rw [if_pos (by rw [sub_self, zero_div])]
  rw [trackRound_fail e unp (fT - D) fT D _
    (by dsimp only; rw [not_lt]; exact le_trans (by norm_num) hD)
    (by dsimp only; rw [a4]; exact hpf) hi]
  unfold advance
  dsimp only
  rw [if_neg hi, if_pos (by
    rw [show fT - (fT - D) = D by ring, abs_div, abs_of_pos (by norm_num : (0 : K) < 10)]
    linarith)]
  dsimp only
  -- third round: succeeds
  rcases fuel with _ | fuel
  · rfl
  rw [trackLoop]
  dsimp only
  have e3 : fT - D + D / 10 = fT - 9 / 10 * D := by ring
  rw [e3, if_pos (by
    rw [show D / 10 = 1 / 10 * D by ring]
    exact step_guard fT D hD0 (9 / 10) (by norm_num) (1 / 10) (by norm_num))]
  obtain ⟨s2, b1, b2, b3, b4, b5, _⟩ := trackRound_ok e unp (fT - D) fT D
    { s1 with t := fT - 9 / 10 * D, dT := D / 10 }
    (by
      dsimp only
      rw [not_lt, abs_div, abs_of_pos (by norm_num : (0 : K) < 10), le_div_iff₀ (by norm_num)]
      refine le_trans ?_ hD
      norm_num)
    (by dsimp only; rw [a4, hq]; exact hqok) (by dsimp only; rw [a4, hq]; linarith [hqd.2])
    (by dsimp only; rw [a4, hq]; exact hqn) a5
  dsimp only at b1 b2 b3 b4
  rw [a4, hq] at b3 b4
  rw [b1]
  have b3' : s2.dT = D := by
    rw [b3]
    refine nextStep_reset _ _ _ _ hqd.1 ?_
    rw [abs_div, abs_of_pos (by norm_num : (0 : K) < 10)]
    have := mul_le_mul_of_nonneg_left hqd.2 hDp.le
    have e4 : |D| / 10 * (e.dim / 2) = |D| * (e.dim / 20) := by ring
    rw [e4]; exact this
  unfold advance
  rw [b2, b3', if_neg (by intro h; apply hD0; linarith), if_neg (by
    rw [show fT - (fT - 9 / 10 * D) = 9 / 10 * D by ring, abs_mul,
      abs_of_pos (by norm_num : (0 : K) < 9 / 10), not_lt]
    linarith)]
  exact track_cycle e unp (fT - D) fT D q hD hdim hi hqf hqq hqq0 hqok hqn fuel _ b5 b4 (Or.inl ⟨rfl, rfl⟩)

/-- A phase in one dimension that does not move and exists below 100.5 only. -/
def vanishing : Env ℚ ℚ where
  locate p _ := p
  bad _ t := decide (t > 100 + 1 / 2)
  dist p q := |p - q|
  neg _ _ := false
  pot _ _ := 0
  zero _ _ _ _ := none
  dim := 1
  glob _ _ := true

/-- The hypotheses of `C50_never_ends` are met by a phase that ends at 100.5 and is tracked from 100 to 101. -/
example (fuel : Nat) : trackPhase vanishing false fuel 0 (101 - 1) 101 1 = none :=
  C50_never_ends vanishing false 101 1 0 0 0 (by norm_num) (by simp [vanishing]) rfl
    (by simp [vanishing]; norm_num) (by simp [vanishing]) (Or.inr rfl) rfl (by simp [vanishing]; norm_num)
    (by simp [vanishing]) (Or.inr rfl) rfl (by simp [vanishing])
    (Or.inl (by simp [vanishing]; norm_num)) (Or.inl (by simp [vanishing]; norm_num)) fuel

/-- A phase for which the search at 101 succeeds only from the point found at 92. -/
def wandering : Env Bool ℚ where
  locate p t := p || decide (t = 92)
  bad q t := decide (t = 101) && !q
  dist _ _ := 0
  neg _ _ := false
  pot _ _ := 0
  zero _ _ _ _ := none
  dim := 1
  glob _ _ := true

/-- C50 is false of the code: the temperatures of the minima can leave the interval that was to be tracked
and are not monotone. -/
theorem C50_leaves_the_interval :
    (trackPhase wandering false 10 false 100 101 10).map (fun r => r.1.map (·.temp)) =
      some [100, 92, 101] := by
  decide +kernel

/-! ### Where nothing goes wrong the whole interval is covered -/

theorem track_grid (e : Env P K) (unp : Bool) (iT x D : K) (n : Nat) (hD : 1 / 10 ^ 5 ≤ |D|)
    (hn : (n : K) < x ∧ x ≤ n + 1)
    (hok : ∀ p t, e.bad (e.locate p t) t = false)
    (hd : ∀ p t, 0 ≤ e.dist (e.locate p t) p ∧ e.dist (e.locate p t) p ≤ e.dim / 2)
    (hneg : unp = true ∨ ∀ p t, e.neg (e.locate p t) t = false) (k : Nat) :
    ∀ (j : Nat) (s : TState P K), j + k = n → s.t = iT + j * D → s.dT = D → s.isInMin ≠ 1 →
      ∃ r, trackLoop e unp iT (iT + x * D) D (k + 2) s = some r ∧
        r.1.map (·.temp) = s.mins.map (·.temp) ++
          (List.range (k + 1)).map (fun i : Nat => iT + ((j + i : Nat) : K) * D) ++ [iT + x * D] := by
  have hD0 : D ≠ 0 := by
    rintro rfl
    rw [abs_zero] at hD
    norm_num at hD
  have hDp : 0 < |D| := abs_pos.2 hD0
  have hdd : ∀ p t, e.dist (e.locate p t) p ≤ e.dim := by
    intro p t
    have := hd p t
    linarith
  have hnn : ∀ p t, unp = true ∨ e.neg (e.locate p t) t = false :=
    fun p t => hneg.imp_right fun h => h p t
  -- one round with the full step
  have round : ∀ s : TState P K, s.dT = D → s.isInMin ≠ 1 → ∃ s' : TState P K,
      trackRound e unp iT (iT + x * D) D s = advance (iT + x * D) s' ∧ s'.t = s.t ∧ s'.dT = D ∧
        s'.isInMin ≠ 1 ∧ s'.mins.map (·.temp) = s.mins.map (·.temp) ++ [s.t] := by
    intro s hs hm
    obtain ⟨s', h1, h2, h3, h4, h5, h6⟩ := trackRound_ok e unp iT (iT + x * D) D s
      (by rw [hs, not_lt]; exact hD) (hok _ _) (hdd _ _) (hnn _ _) hm
    refine ⟨s', h1, h2, ?_, h5, by rw [h6]; simp⟩
    rw [h3, hs]
    exact nextStep_reset _ _ _ _ (hd _ _).1 (mul_le_mul_of_nonneg_left (hd _ _).2 hDp.le)
  have gap : ∀ j : Nat, iT + x * D - (iT + j * D) = (x - j) * D := fun j => by ring
  induction k with
  | zero =>
    intro j s hj ht hs hm
    obtain rfl : j = n := by omega
    rw [trackLoop]
    dsimp only
    rw [ht, hs, gap, mul_div_assoc, div_self hD0, mul_one, if_pos (by linarith [hn.1])]
    obtain ⟨s', h1, h2, h3, h4, h5⟩ := round s hs hm
    rw [h1]
    unfold advance
    rw [h2, h3, ht, if_neg (by
      intro h
      have : (x - j) * D = 0 := by rw [← gap, h]; ring
      rcases mul_eq_zero.1 this with h' | h'
      · linarith [hn.1]
      · exact hD0 h'), gap, if_neg (by
        rw [abs_mul, abs_of_pos (by linarith [hn.1] : 0 < x - j), not_lt]
        exact mul_le_of_le_one_left hDp.le (by linarith [hn.2]))]
    dsimp only
    rw [trackLoop]
    dsimp only
    rw [sub_self, zero_div, if_pos (le_refl _)]
    obtain ⟨s2, g1, g2, g3, g4, g5⟩ := round ⟨iT + x * D, D, s'.point, s'.isInMin, s'.mins, s'.glob,
      s'.globEnd⟩ rfl h4
    rw [g1]
    unfold advance
    rw [g2, if_pos rfl]
    refine ⟨_, rfl, ?_⟩
    dsimp only
    rw [g5, h5, ht]
    simp
  | succ k ih =>
    intro j s hj ht hs hm
    have hjn : (j : K) + 1 ≤ n := by
      have : j + 1 ≤ n := by omega
      exact_mod_cast this
    rw [trackLoop]
    dsimp only
    rw [ht, hs, gap, mul_div_assoc, div_self hD0, mul_one, if_pos (by linarith [hn.1])]
    obtain ⟨s', h1, h2, h3, h4, h5⟩ := round s hs hm
    rw [h1]
    unfold advance
    rw [h2, h3, ht, if_neg (by
      intro h
      have : (x - j) * D = 0 := by rw [← gap, h]; ring
      rcases mul_eq_zero.1 this with h' | h'
      · linarith [hn.1]
      · exact hD0 h'), gap, if_pos (by
        rw [abs_mul, abs_of_pos (by linarith [hn.1] : 0 < x - j)]
        exact lt_mul_of_one_lt_left hDp (by linarith [hn.1]))]
    dsimp only
    obtain ⟨r, r1, r2⟩ := ih (j + 1) ⟨iT + j * D + D, D, s'.point, s'.isInMin, s'.mins, s'.glob,
      s'.globEnd⟩ (by omega) (by push_cast; ring) rfl h4
    refine ⟨r, r1, ?_⟩
    rw [r2]
    dsimp only
    rw [h5, ht, List.range_succ_eq_map (n := k + 1)]
    simp [List.map_map, Function.comp_def, Nat.add_assoc, Nat.add_comm 1]

/-- C50: if at every temperature the search finds a minimum not further than half the allowed distance,
the list contains exactly the temperatures `T0, T0 + dT, T0 + 2 dT, ...` before the final one, and then the
final one.  `x` is the length of the interval in units of the step; the sign of the step in the call does
not matter. -/
theorem C50_covers_interval (e : Env P K) (unp : Bool) (start : P) (iT x D dT : K) (n : Nat)
    (hD : 1 / 10 ^ 5 ≤ |D|) (hdT : dT = D ∨ dT = -D) (hn : (n : K) < x ∧ x ≤ n + 1)
    (hok : ∀ p t, e.bad (e.locate p t) t = false)
    (hd : ∀ p t, 0 ≤ e.dist (e.locate p t) p ∧ e.dist (e.locate p t) p ≤ e.dim / 2)
    (hneg : unp = true ∨ ∀ p t, e.neg (e.locate p t) t = false) :
    ∃ r, trackPhase e unp (n + 2) start iT (iT + x * D) dT = some r ∧
      r.1.map (·.temp) = (List.range (n + 1)).map (fun i : Nat => iT + i * D) ++ [iT + x * D] := by
  have hD0 : D ≠ 0 := by
    rintro rfl
    rw [abs_zero] at hD
    norm_num at hD
  have hx : 0 < x := lt_of_le_of_lt (Nat.cast_nonneg n) hn.1
  unfold trackPhase
  dsimp only
  have e1 : (if (iT + x * D - iT) / dT < 0 then dT * (-1) else dT) = D := by
    rw [add_sub_cancel_left]
    rcases hdT with rfl | rfl
    · rw [mul_div_assoc, div_self hD0, mul_one, if_neg (not_lt.2 hx.le)]
    · rw [div_neg, mul_div_assoc, div_self hD0, mul_one, if_pos (by linarith)]; ring
  rw [e1]
  obtain ⟨r, h1, h2⟩ := track_grid e unp iT x D n hD hn hok hd hneg n 0
    { t := iT, dT := D, point := start, isInMin := 0, mins := [] } (by omega) (by simp) rfl (by simp)
  exact ⟨r, h1, by simpa using h2⟩

/-- A phase that exists everywhere, tracked downwards from 10 to 7.5 with steps of one. -/
example : ∃ r, trackPhase { vanishing with bad := fun _ _ => false } false 4 0 10 (10 + 5 / 2 * (-1)) 1 = some r ∧
    r.1.map (·.temp) = [10, 9, 8, 15 / 2] := by
  obtain ⟨r, h1, h2⟩ := C50_covers_interval { vanishing with bad := fun _ _ => false } false 0 10 (5 / 2)
    (-1) 1 2 (by norm_num) (Or.inr (by norm_num)) (by norm_num) (fun _ _ => rfl)
    (fun _ _ => by simp [vanishing]) (Or.inr fun _ _ => rfl)
  refine ⟨r, h1, ?_⟩
  rw [h2]
  norm_num [List.range_succ]

/-! ### Termination where the final temperature is not the problem -/

theorem abs_sign (σ x : K) (hσ : σ = 1 ∨ σ = -1) (h : 0 ≤ σ * x) : |x| = σ * x := by
  rcases hσ with rfl | rfl
  · rw [abs_of_nonneg (by linarith), one_mul]
  · rw [abs_of_nonpos (by linarith), neg_one_mul]

theorem nextStep_le (dim idT dT dist : K) : |nextStep dim idT dT dist| ≤ |idT| := by
  unfold nextStep
  split
  · exact le_refl _
  · dsimp only
    split
    · exact le_refl _
    · exact (not_le.1 ‹_›).le

theorem track_ends (e : Env P K) (unp : Bool) (iT fT idT σ : K) (hσ : σ = 1 ∨ σ = -1)
    (hid : 0 < σ * idT) (hdist : ∀ p q, 0 ≤ e.dist p q) (hdim : 0 < e.dim)
    (hfin : ∀ p, e.bad (e.locate p fT) fT = false ∧ e.dist (e.locate p fT) p ≤ e.dim)
    (k0 : Nat) (hk0 : σ * idT < 10 ^ k0 * (1 / 10 ^ 5)) (n : Nat) :
    ∀ (k : Nat) (b : K) (s : TState P K), σ * (fT - b) ≤ n * (1 / 10 ^ 5) → 0 < σ * s.dT →
      σ * s.dT < 10 ^ k * (1 / 10 ^ 5) →
      (s.t = fT ∨ s.t = b + s.dT ∧ 0 ≤ σ * (fT - s.t)) → (s.t = iT ∨ b ≠ fT) →
      ∃ fuel r, trackLoop e unp iT fT idT fuel s = some r := by
  -- a round at the final temperature is the last one
  have last : ∀ s : TState P K, s.t = fT → ∃ fuel r, trackLoop e unp iT fT idT fuel s = some r := by
    intro s ht
    refine ⟨1, ?_⟩
    rw [trackLoop]
    dsimp only
    rw [ht, sub_self, zero_div, if_pos (le_refl _)]
    have hc := trackRound_cases e unp iT fT idT s
    revert hc
    generalize trackRound e unp iT fT idT s = nx
    intro hc
    have hno : ¬ (e.bad (e.locate s.point s.t) s.t = true ∨
        e.dist (e.locate s.point s.t) s.point > e.dim) := by
      rw [ht]
      push Not
      exact ⟨by simp [(hfin s.point).1], (hfin s.point).2⟩
    cases hc with
    | small h => exact ⟨_, rfl⟩
    | failStart h hb hi => exact absurd hb hno
    | fail h hb hi => exact absurd hb hno
    | okUnprotected h hb hd hu => unfold advance; dsimp only; rw [if_pos ht]; exact ⟨_, rfl⟩
    | zeroFound h hb hd hu hn hm z tz hz => exact ⟨_, rfl⟩
    | zeroNone h hb hd hu hn hm hz => exact ⟨_, rfl⟩
    | saddle h hb hd hu hn hm => exact ⟨_, rfl⟩
    | never hm => exact ⟨_, rfl⟩
    | okMin h hb hd hu hn hm =>
      unfold advance; dsimp only
      rw [(noteGlob_same e _ _ s).1, if_pos ht]; exact ⟨_, rfl⟩
  -- one more round
  have more : ∀ s s' : TState P K, (fT - s.t) / s.dT ≥ 0 → trackRound e unp iT fT idT s = .cont s' →
      (∃ fuel r, trackLoop e unp iT fT idT fuel s' = some r) →
      ∃ fuel r, trackLoop e unp iT fT idT fuel s = some r := by
    rintro s s' hg hr ⟨fuel, r, h⟩
    refine ⟨fuel + 1, r, ?_⟩
    rw [trackLoop]
    dsimp only
    rw [if_pos hg, hr]
    exact h
  have one : ∀ s : TState P K, (∀ s', trackRound e unp iT fT idT s ≠ .cont s') →
      ∃ fuel r, trackLoop e unp iT fT idT fuel s = some r := by
    intro s h
    refine ⟨1, ?_⟩
    rw [trackLoop]
    dsimp only
    split
    · split
      · exact ⟨_, rfl⟩
      · exact ⟨_, rfl⟩
      · rename_i s' h'
        exact absurd h' (h s')
    · exact ⟨_, rfl⟩
  have guard : ∀ s : TState P K, 0 < σ * s.dT → 0 ≤ σ * (fT - s.t) → (fT - s.t) / s.dT ≥ 0 := by
    intro s h1 h2
    have hq : (fT - s.t) / s.dT = (σ * (fT - s.t)) / (σ * s.dT) := by
      rcases hσ with rfl | rfl
      · simp
      · rw [neg_one_mul, neg_one_mul, neg_div_neg_eq]
    rw [hq]
    exact div_nonneg h2 h1.le
  induction n with
  | zero =>
    intro k b s hb hd hk ht hbn
    rcases ht with ht | ⟨ht, h0⟩
    · exact last s ht
    · exfalso
      rw [ht] at h0
      have : σ * (fT - (b + s.dT)) = σ * (fT - b) - σ * s.dT := by ring
      rw [this] at h0
      simp only [Nat.cast_zero, zero_mul] at hb
      linarith
  | succ n ihn =>
    intro k
    induction k with
    | zero =>
      intro b s hb hd hk ht hbn
      apply one
      intro s' h'
      have hc := trackRound_cases e unp iT fT idT s
      have hsm : |s.dT| < 1 / 10 ^ 5 := by
        rw [abs_sign σ _ hσ hd.le]
        simpa using hk
      unfold trackRound at h'
      dsimp only at h'
      rw [if_pos hsm] at h'
      cases h'
    | succ k ihk =>
      intro b s hb hd hk ht hbn
      rcases ht with ht | ⟨ht, h0⟩
      · exact last s ht
      by_cases hfT : s.t = fT
      · exact last s hfT
      have hg := guard s hd h0
      have hc := trackRound_cases e unp iT fT idT s
      have hbase : 0 < σ * (fT - b) := by
        have : σ * (fT - b) = σ * (fT - s.t) + σ * s.dT := by rw [ht]; ring
        rw [this]; linarith
      -- a successful round
      have success : ∀ s1 : TState P K, trackRound e unp iT fT idT s = advance fT s1 →
          ¬ |s.dT| < 1 / 10 ^ 5 → s1.t = s.t →
          s1.dT = nextStep e.dim idT s.dT (e.dist (e.locate s.point s.t) s.point) →
          ∃ fuel r, trackLoop e unp iT fT idT fuel s = some r := by
        intro s1 hr hns h1 h2
        have hpos : 0 < σ * s1.dT := by
          rw [h2]; exact nextStep_pos _ _ _ _ _ hid hd (hdist _ _) hdim
        have hle : σ * s1.dT < 10 ^ k0 * (1 / 10 ^ 5) := by
          refine lt_of_le_of_lt ?_ hk0
          rw [← abs_sign σ _ hσ hpos.le, ← abs_sign σ _ hσ hid.le, h2]
          exact nextStep_le _ _ _ _
        have hnear : σ * (fT - s.t) ≤ n * (1 / 10 ^ 5) := by
          rw [abs_sign σ _ hσ hd.le, not_lt] at hns
          have : σ * (fT - s.t) = σ * (fT - b) - σ * s.dT := by rw [ht]; ring
          rw [this]
          push_cast at hb
          linarith
        rcases advance_cases fT s1 with ⟨h3, _⟩ | ⟨h3, h4, h5⟩ | ⟨h3, h4, h5⟩
        · exact absurd (h1 ▸ h3) hfT
        · refine more s _ hg (hr.trans h5) (ihn k0 s.t _ hnear hpos hle (Or.inr ⟨?_, ?_⟩) (Or.inr hfT))
          · dsimp only; rw [h1]
          · dsimp only
            rw [h1] at h4 ⊢
            rw [abs_sign σ _ hσ h0, abs_sign σ _ hσ hpos.le] at h4
            have : σ * (fT - (s.t + s1.dT)) = σ * (fT - s.t) - σ * s1.dT := by ring
            rw [this]; linarith
        · exact more s _ hg (hr.trans h5) (last _ rfl)
      generalize hnx : trackRound e unp iT fT idT s = nx at hc
      cases hc with
      | small h => exact one s (by rw [hnx]; simp)
      | failStart h hb hi => exact one s (by rw [hnx]; simp)
      | fail h hbad hi =>
        have hb' : b ≠ fT := hbn.resolve_left (fun h => hi h.symm)
        have e1 : s.t - s.dT = b := by rw [ht]; ring
        have hd10 : 0 < σ * (s.dT / 10) := by
          have : σ * (s.dT / 10) = σ * s.dT / 10 := by ring
          rw [this]; linarith
        rw [e1] at hnx
        have hlt : σ * (s.dT / 10) < σ * (fT - b) := by
          have h1 : σ * (s.dT / 10) = σ * s.dT / 10 := by ring
          have h2 : σ * (fT - b) = σ * (fT - s.t) + σ * s.dT := by rw [ht]; ring
          rw [h1, h2]; linarith
        unfold advance at hnx
        dsimp only at hnx
        rw [if_neg hb', if_pos (by rw [abs_sign σ _ hσ hbase.le, abs_sign σ _ hσ hd10.le]; exact hlt)] at hnx
        refine more s _ hg hnx (ihk b _ hb hd10 ?_ (Or.inr ⟨rfl, ?_⟩) (Or.inr hb'))
        · dsimp only
          have : σ * (s.dT / 10) = σ * s.dT / 10 := by ring
          rw [this, div_lt_iff₀ (by norm_num)]
          calc σ * s.dT < 10 ^ (k + 1) * (1 / 10 ^ 5) := hk
            _ = 10 ^ k * (1 / 10 ^ 5) * 10 := by ring
        · dsimp only
          have : σ * (fT - (b + s.dT / 10)) = σ * (fT - b) - σ * (s.dT / 10) := by ring
          rw [this]; linarith
      | okUnprotected h hb hd hu => exact success _ hnx h rfl rfl
      | zeroFound h hb hd hu hn hm z tz hz => exact one s (by rw [hnx]; simp)
      | zeroNone h hb hd hu hn hm hz => exact one s (by rw [hnx]; simp)
      | saddle h hb hd hu hn hm => exact one s (by rw [hnx]; simp)
      | never hm => exact one s (by rw [hnx]; simp)
      | okMin h hb hd hu hn hm =>
        exact success _ hnx h (noteGlob_same e _ _ s).1 rfl

/-- C50 as far as it holds: the tracking ends whenever the search at the final temperature never fails
(from whatever point it is started).  Missing: the case of a phase that does not reach the final
temperature, see `C50_never_ends`. -/
theorem C50_ends_partial [Archimedean K] (e : Env P K) (unp : Bool) (start : P) (iT fT dT : K) (hdT : dT ≠ 0)
    (hne : iT ≠ fT) (hdist : ∀ p q, 0 ≤ e.dist p q) (hdim : 0 < e.dim)
    (hfin : ∀ p, e.bad (e.locate p fT) fT = false ∧ e.dist (e.locate p fT) p ≤ e.dim) :
    ∃ fuel r, trackPhase e unp fuel start iT fT dT = some r := by
  obtain ⟨σ, hσ, hdir⟩ : ∃ σ : K, (σ = 1 ∨ σ = -1) ∧ 0 < σ * (fT - iT) := by
    rcases lt_or_gt_of_ne hne with h | h
    · exact ⟨1, Or.inl rfl, by linarith⟩
    · exact ⟨-1, Or.inr rfl, by linarith⟩
  unfold trackPhase
  dsimp only
  obtain ⟨d, hd⟩ : ∃ d, d = if (fT - iT) / dT < 0 then dT * (-1) else dT := ⟨_, rfl⟩
  rw [← hd]
  have hpos : 0 < σ * d := by
    have hq : (fT - iT) / dT = (σ * (fT - iT)) / (σ * dT) := by
      rcases hσ with rfl | rfl
      · simp
      · rw [neg_one_mul, neg_one_mul, neg_div_neg_eq]
    have hn : σ * dT ≠ 0 := mul_ne_zero (by rcases hσ with rfl | rfl <;> norm_num) hdT
    rw [hd, hq]
    split
    · rename_i hlt
      have : σ * dT < 0 := by
        by_contra hc
        exact absurd hlt (not_lt.2 (div_nonneg hdir.le (not_lt.1 hc)))
      linarith
    · rename_i hlt
      rcases lt_or_gt_of_ne hn with h' | h'
      · exact absurd (div_neg_of_pos_of_neg hdir h') hlt
      · exact h'
  obtain ⟨k0, hk0⟩ := pow_unbounded_of_one_lt (σ * d / (1 / 10 ^ 5)) (by norm_num : (1 : K) < 10)
  rw [div_lt_iff₀ (by positivity)] at hk0
  obtain ⟨n, hn⟩ := exists_nat_ge (σ * (fT - (iT - d)) / (1 / 10 ^ 5))
  rw [div_le_iff₀ (by positivity)] at hn
  exact track_ends e unp iT fT d σ hσ hpos hdist hdim hfin k0 hk0 n k0 (iT - d) _ hn hpos hk0
    (Or.inr ⟨by simp, hdir.le⟩) (Or.inl rfl)

/-! ### The zero of the smallest eigenvalue -/

theorem zeroLoop_sound (loc : P → K → P) (ev : P → K → K) (far : P → Bool) (ev1 ev2 : K) (a b : K)
    (good : P × K → Prop)
    (hgood : ∀ p t, ev1 * ev p t > 0 → far p = false → min a b ≤ t → t ≤ max a b → good (p, t)) (fuel : Nat) :
    ∀ (t1 t2 : K) (pm : P) (cand r : P × K), min a b ≤ t1 → t1 ≤ max a b → min a b ≤ t2 → t2 ≤ max a b →
      good cand → zeroLoop loc ev far ev1 ev2 fuel t1 t2 pm cand = some r → good r := by
  induction fuel with
  | zero => intro t1 t2 pm cand r _ _ _ _ _ h; simp [zeroLoop] at h
  | succ fuel ih =>
    intro t1 t2 pm cand r h1 h2 h3 h4 hc h
    rw [zeroLoop] at h
    split at h
    · dsimp only at h
      have m1 : min a b ≤ (t1 + t2) / 2 := by linarith
      have m2 : (t1 + t2) / 2 ≤ max a b := by linarith
      by_cases hf : far (loc pm ((t1 + t2) / 2)) = true
      · simp only [hf, if_true] at h
        split at h
        · exact ih _ _ _ _ _ m1 m2 m1 m2 hc h
        · split at h
          · exact ih _ _ _ _ _ h1 h2 m1 m2 hc h
          · cases h; exact hc
      · have hf : far (loc pm ((t1 + t2) / 2)) = false := by simpa using hf
        simp only [hf, Bool.false_eq_true, if_false] at h
        split at h
        · rename_i he
          exact ih _ _ _ _ _ m1 m2 h3 h4 (hgood _ _ he hf m1 m2) h
        · split at h
          · exact ih _ _ _ _ _ h1 h2 m1 m2 hc h
          · cases h; exact hc
    · cases h; exact hc

/-- C50: the point returned for the disappearance of a minimum is either the last minimum itself or a
stationary point found between the two temperatures, close to both points, whose smallest eigenvalue has the
sign of that of the minimum; a negative temperature is returned exactly when the signs agree at both ends. -/
theorem C50_zero_eigenvalue (loc : P → K → P) (ev : P → K → K) (dist : P → P → K) (fuel : Nat) (p1 p2 : P)
    (t1 t2 : K) (r : P × K) (h : findZero loc ev dist fuel p1 t1 p2 t2 = some r) :
    (ev p1 t1 * ev p2 t2 > 0 ∧ r = (p1, -1)) ∨
    (¬ ev p1 t1 * ev p2 t2 > 0 ∧ min t1 t2 ≤ r.2 ∧ r.2 ≤ max t1 t2 ∧ (r = (p1, t1) ∨
      (ev p1 t1 * ev r.1 r.2 > 0 ∧ dist r.1 p2 ≤ max 1 (dist p1 p2) ∧ dist p1 r.1 ≤ max 1 (dist p1 p2)))) := by
  unfold findZero at h
  split at h
  · rename_i he
    cases h; exact Or.inl ⟨he, rfl⟩
  · rename_i he
    right
    refine ⟨he, ?_⟩
    dsimp only at h
    refine zeroLoop_sound loc ev _ _ _ t1 t2 (fun r => min t1 t2 ≤ r.2 ∧ r.2 ≤ max t1 t2 ∧ (r = (p1, t1) ∨
      (ev p1 t1 * ev r.1 r.2 > 0 ∧ dist r.1 p2 ≤ max 1 (dist p1 p2) ∧ dist p1 r.1 ≤ max 1 (dist p1 p2))))
      ?_ fuel t1 t2 p1 (p1, t1) r (min_le_left _ _) (le_max_left _ _) (min_le_right _ _) (le_max_right _ _)
      ⟨min_le_left _ _, le_max_left _ _, Or.inl rfl⟩ h
    intro p t h1 h2 h3 h4
    simp only [Bool.or_eq_false_iff, decide_eq_false_iff_not, not_lt] at h2
    exact ⟨h3, h4, Or.inr ⟨h1, h2.1, h2.2⟩⟩

theorem zeroLoop_accurate (loc : P → K → P) (ev : P → K → K) (ev1 ev2 tend : K) (fuel : Nat) :
    ∀ (t1 t2 : K) (pm : P) (cand r : P × K), cand.2 = t1 → (t2 = tend ∨ ∃ p, ev2 * ev p t2 > 0) →
      zeroLoop loc ev (fun _ => false) ev1 ev2 fuel t1 t2 pm cand = some r →
      (∃ t, (t = tend ∨ ∃ p, ev2 * ev p t > 0) ∧ |r.2 / t - 1| ≤ 1 / 10 ^ 8) ∨
      ∃ p t, ev1 * ev p t ≤ 0 ∧ ev2 * ev p t ≤ 0 := by
  induction fuel with
  | zero => intro t1 t2 pm cand r _ _ h; simp [zeroLoop] at h
  | succ fuel ih =>
    intro t1 t2 pm cand r hc h2 h
    rw [zeroLoop] at h
    split at h
    · dsimp only at h
      simp only [Bool.false_eq_true, if_false] at h
      split at h
      · exact ih ((t1 + t2) / 2) t2 _ (_, (t1 + t2) / 2) r rfl h2 h
      · split at h
        · exact ih _ _ _ _ _ hc (Or.inr ⟨_, ‹_›⟩) h
        · exact Or.inr ⟨_, _, not_lt.1 ‹_›, not_lt.1 ‹_›⟩
    · rename_i hw
      cases h
      rw [hc]
      exact Or.inl ⟨t2, h2, not_lt.1 hw⟩

/-- C50: if all points stay close and no eigenvalue met is exactly zero, the temperature returned for the
disappearance agrees to a part in 10^8 with one at which the eigenvalue has the other sign. -/
theorem C50_zero_accuracy (loc : P → K → P) (ev : P → K → K) (dist : P → P → K) (fuel : Nat) (p1 p2 : P)
    (t1 t2 : K) (r : P × K) (hclose : ∀ p q, dist p q ≤ 1) (h1 : ev p1 t1 > 0) (h2 : ev p2 t2 < 0)
    (hne : ∀ p t, ev p t ≠ 0) (h : findZero loc ev dist fuel p1 t1 p2 t2 = some r) :
    ev r.1 r.2 > 0 ∧ ∃ p t, ev p t < 0 ∧ |r.2 / t - 1| ≤ 1 / 10 ^ 8 := by
  have hneg : ¬ ev p1 t1 * ev p2 t2 > 0 := not_lt.2 (mul_neg_of_pos_of_neg h1 h2).le
  constructor
  · rcases C50_zero_eigenvalue loc ev dist fuel p1 p2 t1 t2 r h with h' | ⟨_, _, _, h' | h'⟩
    · exact absurd h'.1 hneg
    · rw [h']; exact h1
    · exact (pos_iff_pos_of_mul_pos h'.1).1 h1
  · unfold findZero at h
    rw [if_neg hneg] at h
    dsimp only at h
    have hfar : (fun p => decide (dist p p2 > max 1 (dist p1 p2)) || decide (dist p1 p > max 1 (dist p1 p2))) =
        fun _ => false := by
      funext p
      have a1 := (hclose p p2).trans (le_max_left 1 (dist p1 p2))
      have a2 := (hclose p1 p).trans (le_max_left 1 (dist p1 p2))
      simp only [Bool.or_eq_false_iff, decide_eq_false_iff_not, not_lt]
      exact ⟨a1, a2⟩
    rw [hfar] at h
    rcases zeroLoop_accurate loc ev (ev p1 t1) (ev p2 t2) t2 fuel t1 t2 p1 (p1, t1) r rfl (Or.inl rfl) h with
      ⟨t, ht | ⟨p, hp⟩, hw⟩ | ⟨p, t, a1, a2⟩
    · exact ⟨p2, t, by rw [ht]; exact h2, hw⟩
    · exact ⟨p, t, (neg_iff_neg_of_mul_pos hp).1 h2, hw⟩
    · exfalso
      rcases lt_or_gt_of_ne (hne p t) with h' | h'
      · exact absurd a2 (not_le.2 (mul_pos_of_neg_of_neg h2 h'))
      · exact absurd a1 (not_le.2 (mul_pos h1 h'))

/-- C50: the search for the zero ends for positive temperatures. -/
theorem C50_zero_ends [Archimedean K] (loc : P → K → P) (ev : P → K → K) (dist : P → P → K) (p1 p2 : P)
    (t1 t2 : K) (h1 : 0 < t1) (h2 : 0 < t2) : ∃ fuel r, findZero loc ev dist fuel p1 t1 p2 t2 = some r := by
  have key : ∀ (far : P → Bool) (ev1 ev2 : K) (k : Nat) (c t1 t2 : K) (pm : P) (cand : P × K), 0 < c →
      c ≤ t1 → c ≤ t2 → |t1 - t2| < 2 ^ k * (c / 10 ^ 8) →
      ∃ r, zeroLoop loc ev far ev1 ev2 (k + 1) t1 t2 pm cand = some r := by
    intro far ev1 ev2 k
    induction k with
    | zero =>
      intro c t1 t2 pm cand hc hc1 hc2 hw
      rw [zeroLoop, if_neg]
      · exact ⟨_, rfl⟩
      · have ht2 : 0 < t2 := lt_of_lt_of_le hc hc2
        have e1 : t1 / t2 - 1 = (t1 - t2) / t2 := by field_simp
        rw [e1, abs_div, abs_of_pos ht2, not_lt, div_le_iff₀ ht2]
        rw [pow_zero, one_mul] at hw
        refine hw.le.trans ?_
        rw [div_mul_eq_mul_div, one_mul]
        gcongr
    | succ k ih =>
      intro c t1 t2 pm cand hc hc1 hc2 hw
      have w1 : |t1 - (t1 + t2) / 2| < 2 ^ k * (c / 10 ^ 8) := by
        have : t1 - (t1 + t2) / 2 = (t1 - t2) / 2 := by ring
        rw [this, abs_div, abs_of_pos (by norm_num : (0 : K) < 2), div_lt_iff₀ (by norm_num)]
        rw [pow_succ] at hw
        linarith
      have w2 : |(t1 + t2) / 2 - t2| < 2 ^ k * (c / 10 ^ 8) := by
        have : (t1 + t2) / 2 - t2 = t1 - (t1 + t2) / 2 := by ring
        rw [this]; exact w1
      have w3 : |(t1 + t2) / 2 - (t1 + t2) / 2| < 2 ^ k * (c / 10 ^ 8) := by
        rw [sub_self, abs_zero]; positivity
      have hm : c ≤ (t1 + t2) / 2 := by linarith
      rw [zeroLoop]
      split
      · dsimp only
        by_cases hf : far (loc pm ((t1 + t2) / 2)) = true
        · simp only [hf, if_true]
          split
          · exact ih c _ _ _ _ hc hm hm w3
          · split
            · exact ih c _ _ _ _ hc hc1 hm w1
            · exact ⟨_, rfl⟩
        · have hf : far (loc pm ((t1 + t2) / 2)) = false := by simpa using hf
          simp only [hf, Bool.false_eq_true, if_false]
          split
          · exact ih c _ _ _ _ hc hm hc2 w2
          · split
            · exact ih c _ _ _ _ hc hc1 hm w1
            · exact ⟨_, rfl⟩
      · exact ⟨_, rfl⟩
  have hc : 0 < min t1 t2 := lt_min h1 h2
  obtain ⟨k, hk⟩ := pow_unbounded_of_one_lt (|t1 - t2| / (min t1 t2 / 10 ^ 8)) (one_lt_two : (1 : K) < 2)
  rw [div_lt_iff₀ (by positivity)] at hk
  refine ⟨k + 1, ?_⟩
  unfold findZero
  split
  · exact ⟨_, rfl⟩
  · exact key _ _ _ k (min t1 t2) t1 t2 _ _ hc (min_le_left _ _) (min_le_right _ _) hk

/-! ### Locating a minimum -/

/-- C50: a local search either ends where the gradient is not above the tolerance, or it has made all its
steps. -/
theorem C50_locate (below above : P → Bool) (step : P → P) (maxiter : Nat) (guess : P) :
    let r := locateMinimum below above step maxiter guess
    (∃ n ≤ maxiter, r = step^[n] guess ∧ (∀ i < n, above (step^[i] guess) = true)) ∧
    (below r = true ∨ above r = false ∨ r = step^[maxiter] guess) := by
  have loop : ∀ (n : Nat) (p : P), (∃ m ≤ n, locateLoop above step n p = step^[m] p ∧
      (∀ i < m, above (step^[i] p) = true)) ∧
      (above (locateLoop above step n p) = false ∨ locateLoop above step n p = step^[n] p) := by
    intro n
    induction n with
    | zero => intro p; exact ⟨⟨0, le_refl _, rfl, by simp⟩, Or.inr rfl⟩
    | succ n ih =>
      intro p
      rw [locateLoop]
      split
      · rename_i ha
        obtain ⟨⟨m, hm, h1, h2⟩, h3⟩ := ih (step p)
        refine ⟨⟨m + 1, by omega, by rw [h1, Function.iterate_succ_apply], ?_⟩, ?_⟩
        · intro i hi
          rcases i with _ | i
          · exact ha
          · rw [Function.iterate_succ_apply]; exact h2 i (by omega)
        · rw [Function.iterate_succ_apply]; exact h3
      · rename_i ha
        exact ⟨⟨0, by omega, rfl, by simp⟩, Or.inl (by simpa using ha)⟩
  dsimp only
  unfold locateMinimum
  split
  · rename_i hb
    exact ⟨⟨0, by omega, rfl, by simp⟩, Or.inl hb⟩
  · exact ⟨(loop maxiter guess).1, Or.inr (loop maxiter guess).2⟩

end Verif.Tracer
