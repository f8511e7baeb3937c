import Verif.Spline.RootsProps

/-!
# C135: the solutions of `spline(x) = y` for a precision above 0
-/

set_option linter.unusedVariables false
set_option linter.unusedSimpArgs false
set_option linter.style.longLine false

namespace Verif.Spline.Roots

open RootsSpec

namespace RootsSpec

/-- the discriminants of the pieces stand out of the round-off margin -/
def ClearInside (eps : ℝ) (s : Spl ℝ) (y : ℝ) : Prop :=
  ∀ i : Nat, i + 1 < s.n → Clear eps (s.y i - y) (s.b i) (s.c i) (s.d i)

/-- and those of the extrapolations -/
structure ClearEverywhere (eps : ℝ) (s : Spl ℝ) (y : ℝ) : Prop where
  inside : ClearInside eps s y
  left : Clear eps (s.y 0 - y) (s.b 0) s.c0 0
  right : Clear eps (s.y (s.n - 1) - y) (s.b (s.n - 1)) (s.c (s.n - 1)) 0

/-- two solutions are at least 512 times the precision apart, and no piece takes the value in such a
distance before its first node -/
structure Separated (eps : ℝ) (s : Spl ℝ) (y : ℝ) : Prop where
  apart : ∀ t u, eval s t = y → eval s u = y → t < u → t + 512 * eps ≤ u
  nodes : ∀ i : Nat, 0 < i → i + 1 < s.n → ∀ r, -(512 * eps) ≤ r → r < 0 →
    poly (s.y i - y) (s.b i) (s.c i) (s.d i) r ≠ 0

end RootsSpec

theorem tolerance_le (eps : ℝ) (s : Spl ℝ) (i : Nat) (he : 0 ≤ eps) : tolerance eps s i ≤ 512 * eps := by
  unfold tolerance
  dsimp only
  have : min (if i > 0 then s.x i - s.x (i - 1) else 0) (1 : ℝ) ≤ 1 := min_le_right _ _
  nlinarith

theorem tolerance_nonneg (eps : ℝ) (s : Spl ℝ) (f : Fits s) (i : Nat) (hi : i < s.n) (he : 0 ≤ eps) :
    0 ≤ tolerance eps s i := by
  unfold tolerance
  refine mul_nonneg (by positivity) (le_min ?_ zero_le_one)
  split
  · rename_i h
    exact sub_nonneg.2 (f.incr.le (by omega) hi)
  · exact le_rfl

theorem addRoots_separated (eps : ℝ) (s : Spl ℝ) (i : Nat) (l : List ℝ) (he : 0 ≤ tolerance eps s i) :
    (∀ r ∈ l, ¬ (-tolerance eps s i ≤ r ∧ r < 0)) →
    (∀ r ∈ l, ∀ r' ∈ l, 0 ≤ r → r < r' → r' < s.x (i + 1) - s.x i → r + tolerance eps s i ≤ r') →
    ∀ x : List ℝ, l.Pairwise (· < ·) →
    (∀ t ∈ x, ∀ r ∈ l, 0 ≤ r → r < s.x (i + 1) - s.x i → t + tolerance eps s i ≤ s.x i + r) →
    l.foldl (addRoot eps s i) x =
      x ++ (l.filter fun r => 0 ≤ r ∧ r < s.x (i + 1) - s.x i).map fun r => s.x i + r := by
  induction l with
  | nil => intro _ _ x _ _; simp
  | cons r l ih =>
    intro hsp hap x hl hx
    have ih := ih (fun r' hr' => hsp r' (by simp [hr']))
      (fun r1 h1 r2 h2 => hap r1 (by simp [h1]) r2 (by simp [h2]))
    rw [List.foldl_cons]
    by_cases hr : 0 ≤ r ∧ r < s.x (i + 1) - s.x i
    · have hstep : addRoot eps s i x r = x ++ [s.x i + r] := by
        unfold addRoot
        dsimp only
        rw [if_pos ⟨by linarith [hr.1], hr.2⟩]
        cases hg : x.getLast? with
        | none => rfl
        | some t =>
          dsimp only
          have hlt := hx t (List.mem_of_getLast? hg) r (by simp) hr.1 hr.2
          rw [if_neg (not_lt.2 hlt)]
      rw [hstep, ih _ (List.pairwise_cons.1 hl).2 ?_]
      · rw [List.filter_cons_of_pos (by simpa using hr)]
        simp
      · intro t ht' r' hr' h0 h1
        rw [List.mem_append, List.mem_singleton] at ht'
        rcases ht' with ht' | rfl
        · exact hx t ht' r' (by simp [hr']) h0 h1
        · have := hap r (by simp) r' (by simp [hr']) hr.1 ((List.pairwise_cons.1 hl).1 r' hr') h1
          linarith
    · have hstep : addRoot eps s i x r = x := by
        unfold addRoot
        dsimp only
        rw [if_neg]
        rintro ⟨h0, h1⟩
        rcases lt_or_ge r 0 with h2 | h2
        · exact hsp r (by simp) ⟨h0, h2⟩
        · exact hr ⟨h2, h1⟩
      rw [hstep, ih _ (List.pairwise_cons.1 hl).2
        (fun t ht' r' hr' => hx t ht' r' (by simp [hr']))]
      rw [List.filter_cons_of_neg (by simpa using hr)]

/-- the pieces -/
theorem pieces_separated (eps : ℝ) (s : Spl ℝ) (f : Fits s) (y : ℝ) (he : 0 ≤ eps) (hflat : NotFlat s y)
    (hcl : ClearInside eps s y) (hsep : Separated eps s y) (x : List ℝ)
    (hx : x.Pairwise (· < ·)) (hx0 : ∀ t ∈ x, t < s.x 0 ∧ eval s t = y) : ∀ m : Nat, m + 1 ≤ s.n →
    ((List.range m).foldl (addPiece eps s y) x).Pairwise (· < ·) ∧
    ∀ t, t ∈ (List.range m).foldl (addPiece eps s y) x ↔
      t ∈ x ∨ (s.x 0 ≤ t ∧ t < s.x m ∧ eval s t = y) := by
  intro m hm
  induction m with
  | zero =>
    refine ⟨hx, fun t => ?_⟩
    constructor
    · intro h; exact Or.inl h
    · rintro (h | ⟨h1, h2, _⟩)
      · exact h
      · exact absurd h2 (not_lt.2 h1)
  | succ m ih =>
    obtain ⟨ih1, ih2⟩ := ih (by omega)
    have hle : s.x 0 ≤ s.x m := f.incr.le (by omega) (by omega)
    have hmm : s.x m < s.x (m + 1) := f.incr m (by omega)
    rw [List.range_succ, List.foldl_append]
    simp only [List.foldl_cons, List.foldl_nil]
    set X := (List.range m).foldl (addPiece eps s y) x with hX
    have hne : s.y m - y ≠ 0 ∨ s.b m ≠ 0 ∨ s.c m ≠ 0 ∨ s.d m ≠ 0 := by
      rcases hflat m (by omega) with h | h | h | h
      · exact Or.inl (sub_ne_zero.2 h)
      · exact Or.inr (Or.inl h)
      · exact Or.inr (Or.inr (Or.inl h))
      · exact Or.inr (Or.inr (Or.inr h))
    obtain ⟨hz1, hz2⟩ := C135_cubic eps (s.y m - y) (s.b m) (s.c m) (s.d m) 1 he hne (hcl m (by omega))
    have hbelow : ∀ t ∈ X, t < s.x m := by
      intro t ht
      rcases (ih2 t).1 ht with h | h
      · exact lt_of_lt_of_le (hx0 t h).1 hle
      · exact h.2.1
    have hadd : addPiece eps s y X m = X ++ ((solveCubic eps (s.y m - y) (s.b m) (s.c m) (s.d m) 1).filter
        fun r => 0 ≤ r ∧ r < s.x (m + 1) - s.x m).map fun r => s.x m + r := by
      unfold addPiece
      have htol := tolerance_le eps s m he
      have hsol : ∀ r ∈ solveCubic eps (s.y m - y) (s.b m) (s.c m) (s.d m) 1, 0 ≤ r →
          r < s.x (m + 1) - s.x m → eval s (s.x m + r) = y := by
        intro r hr h0 h1
        rw [eval_piece s f m (by omega) _ (by linarith) (by linarith)]
        have := (poly_horner _ _ _ _ _ _).1 ((hz2 r).1 hr)
        simpa using this
      refine addRoots_separated eps s m _ (tolerance_nonneg eps s f m (by omega) he) ?_ ?_ X hz1 ?_
      · rintro r hr ⟨h0, h1⟩
        have hm0 : 0 < m := by
          rcases Nat.eq_zero_or_pos m with rfl | h
          · simp only [tolerance, gt_iff_lt, lt_self_iff_false, if_false] at h0
            have : min (0 : ℝ) 1 = 0 := min_eq_left zero_le_one
            rw [this] at h0
            linarith
          · exact h
        exact hsep.nodes m hm0 (by omega) r (by linarith) h1 ((hz2 r).1 hr)
      · intro r hr r' hr' h0 h1 h2
        have := hsep.apart (s.x m + r) (s.x m + r') (hsol r hr h0 (by linarith))
          (hsol r' hr' (by linarith) h2) (by linarith)
        linarith
      · intro t ht r hr h0 h1
        have hlt := hbelow t ht
        have het : eval s t = y := by
          rcases (ih2 t).1 ht with h | h
          · exact (hx0 t h).2
          · exact h.2.2
        have := hsep.apart t (s.x m + r) het (hsol r hr h0 h1) (by linarith)
        linarith
    rw [hadd]
    refine ⟨?_, fun t => ?_⟩
    · rw [List.pairwise_append]
      refine ⟨ih1, ?_, ?_⟩
      · refine List.Pairwise.map _ (fun a b h => ?_) (hz1.filter _)
        exact add_lt_add_right h _
      · intro a ha b hb
        rw [List.mem_map] at hb
        obtain ⟨r, hr, rfl⟩ := hb
        rw [List.mem_filter] at hr
        have h0 := hr.2
        simp only [Bool.decide_and, Bool.and_eq_true, decide_eq_true_eq] at h0
        have := hbelow a ha
        linarith [h0.1]
    · rw [List.mem_append, ih2, List.mem_map]
      have hpiece : ∀ t, s.x m ≤ t → t < s.x (m + 1) →
          (t - s.x m ∈ solveCubic eps (s.y m - y) (s.b m) (s.c m) (s.d m) 1 ↔ eval s t = y) := by
        intro t h1 h2
        rw [hz2, poly_horner, eval_piece s f m (by omega) t h1 h2.le]
      constructor
      · rintro ((h | ⟨h1, h2, h3⟩) | ⟨r, hr, rfl⟩)
        · exact Or.inl h
        · exact Or.inr ⟨h1, h2.trans hmm, h3⟩
        · rw [List.mem_filter] at hr
          have h0 := hr.2
          simp only [Bool.decide_and, Bool.and_eq_true, decide_eq_true_eq] at h0
          refine Or.inr ⟨by linarith [h0.1], by linarith [h0.2], ?_⟩
          rw [← hpiece _ (by linarith [h0.1]) (by linarith [h0.2])]
          simpa using hr.1
      · rintro (h | ⟨h1, h2, h3⟩)
        · exact Or.inl (Or.inl h)
        · by_cases h4 : t < s.x m
          · exact Or.inl (Or.inr ⟨h1, h4, h3⟩)
          · have h5 := not_lt.1 h4
            refine Or.inr ⟨t - s.x m, ?_, by ring⟩
            rw [List.mem_filter]
            refine ⟨(hpiece t h5 h2).2 h3, ?_⟩
            simp only [Bool.decide_and, Bool.and_eq_true, decide_eq_true_eq]
            exact ⟨by linarith, by linarith⟩

/-- **C135** for any precision, without extrapolation: if the discriminants stand out of the margin and
the solutions are further apart than 512 times the precision, `solve` finds exactly the solutions
from the first node to, but not at, the last one, in increasing order. -/
theorem C135_separated_inside (eps : ℝ) (s : Spl ℝ) (f : Fits s) (y : ℝ) (he : 0 ≤ eps)
    (hflat : NotFlat s y) (hcl : ClearInside eps s y) (hsep : Separated eps s y) :
    (solve eps s y true).Pairwise (· < ·) ∧
    ∀ t, t ∈ solve eps s y true ↔ s.x 0 ≤ t ∧ t < s.x (s.n - 1) ∧ eval s t = y := by
  have h := pieces_separated eps s f y he hflat hcl hsep [] List.Pairwise.nil (by simp) (s.n - 1)
    (by have := f.two; omega)
  simp only [List.not_mem_nil, false_or] at h
  exact h

/-- **C135** for any precision, with extrapolation: under the same conditions `solve` finds exactly all
solutions, in increasing order. -/
theorem C135_separated_everywhere (eps : ℝ) (s : Spl ℝ) (f : Fits s) (y : ℝ) (he : 0 ≤ eps)
    (hflat : NotFlat s y) (hout : NotFlatOutside s y) (hcl : ClearEverywhere eps s y)
    (hsep : Separated eps s y) :
    (solve eps s y false).Pairwise (· < ·) ∧ ∀ t, t ∈ solve eps s y false ↔ eval s t = y := by
  have hn := f.two
  obtain ⟨hl1, hl2⟩ := C135_cubic eps (s.y 0 - y) (s.b 0) s.c0 0 1 he (by
    rcases hout.1 with h | h | h
    · exact Or.inl (sub_ne_zero.2 h)
    · exact Or.inr (Or.inl h)
    · exact Or.inr (Or.inr (Or.inl h))) hcl.left
  obtain ⟨hr1, hr2⟩ := C135_cubic eps (s.y (s.n - 1) - y) (s.b (s.n - 1)) (s.c (s.n - 1)) 0 1 he (by
    rcases hout.2 with h | h | h
    · exact Or.inl (sub_ne_zero.2 h)
    · exact Or.inr (Or.inl h)
    · exact Or.inr (Or.inr (Or.inl h))) hcl.right
  have hL : (leftRoots eps s y).Pairwise (· < ·) ∧
      ∀ t, t ∈ leftRoots eps s y ↔ t < s.x 0 ∧ eval s t = y := by
    unfold leftRoots
    refine ⟨List.Pairwise.map _ (fun a b h => add_lt_add_right h _) (hl1.filter _), fun t => ?_⟩
    rw [List.mem_map]
    constructor
    · rintro ⟨r, hr, rfl⟩
      rw [List.mem_filter] at hr
      have h0 : r < 0 := by simpa using hr.2
      refine ⟨by linarith, ?_⟩
      rw [eval_left s f _ (by linarith)]
      have := (poly_horner _ _ _ _ _ _).1 ((hl2 r).1 hr.1)
      rw [← this]
      ring
    · rintro ⟨h1, h2⟩
      refine ⟨t - s.x 0, ?_, by ring⟩
      rw [List.mem_filter]
      refine ⟨(hl2 _).2 ((poly_horner _ _ _ _ _ _).2 ?_), by simpa using h1⟩
      rw [← h2, eval_left s f t h1.le]
      ring
  have hR : (rightRoots eps s y).Pairwise (· < ·) ∧
      ∀ t, t ∈ rightRoots eps s y ↔ s.x (s.n - 1) ≤ t ∧ eval s t = y := by
    unfold rightRoots
    refine ⟨List.Pairwise.map _ (fun a b h => add_lt_add_right h _) (hr1.filter _), fun t => ?_⟩
    rw [List.mem_map]
    constructor
    · rintro ⟨r, hr, rfl⟩
      rw [List.mem_filter] at hr
      have h0 : 0 ≤ r := by simpa using hr.2
      refine ⟨by linarith, ?_⟩
      rw [eval_right s f _ (by linarith)]
      have := (poly_horner _ _ _ _ _ _).1 ((hr2 r).1 hr.1)
      rw [← this]
      ring
    · rintro ⟨h1, h2⟩
      refine ⟨t - s.x (s.n - 1), ?_, by ring⟩
      rw [List.mem_filter]
      refine ⟨(hr2 _).2 ((poly_horner _ _ _ _ _ _).2 ?_), by simpa using h1⟩
      rw [← h2, eval_right s f t h1]
      ring
  obtain ⟨h1, h2⟩ := pieces_separated eps s f y he hflat hcl.inside hsep (leftRoots eps s y) hL.1
    (fun t ht => (hL.2 t).1 ht)
    (s.n - 1) (by omega)
  have hle : s.x 0 ≤ s.x (s.n - 1) := f.incr.le (by omega) (by omega)
  have hsolve : solve eps s y false =
      (List.range (s.n - 1)).foldl (addPiece eps s y) (leftRoots eps s y) ++ rightRoots eps s y := rfl
  rw [hsolve]
  refine ⟨?_, fun t => ?_⟩
  · rw [List.pairwise_append]
    refine ⟨h1, hR.1, fun a ha b hb => ?_⟩
    have hb' := ((hR.2 b).1 hb).1
    rcases (h2 a).1 ha with h | h
    · exact lt_of_lt_of_le ((hL.2 a).1 h).1 (hle.trans hb')
    · exact lt_of_lt_of_le h.2.1 hb'
  · rw [List.mem_append, h2, hL.2, hR.2]
    constructor
    · rintro ((h | h) | h)
      · exact h.2
      · exact h.2.2
      · exact h.2
    · intro h
      by_cases a1 : t < s.x 0
      · exact Or.inl (Or.inl ⟨a1, h⟩)
      · by_cases a2 : t < s.x (s.n - 1)
        · exact Or.inl (Or.inr ⟨not_lt.1 a1, a2, h⟩)
        · exact Or.inr ⟨not_lt.1 a2, h⟩

/-! ### Without separation -/

theorem addRoots_sound (eps : ℝ) (s : Spl ℝ) (i : Nat) (P : ℝ → Prop) (l : List ℝ) : ∀ x : List ℝ,
    (∀ t ∈ x, P t) →
    (∀ r ∈ l, -tolerance eps s i ≤ r → r < s.x (i + 1) - s.x i → P (s.x i + r)) →
    ∀ t ∈ l.foldl (addRoot eps s i) x, P t := by
  induction l with
  | nil => intro x hx _; exact hx
  | cons r l ih =>
    intro x hx hl
    rw [List.foldl_cons]
    refine ih _ ?_ (fun r' hr' => hl r' (by simp [hr']))
    intro t ht
    unfold addRoot at ht
    dsimp only at ht
    split at ht
    · rename_i h
      have hnew := hl r (by simp) h.1 h.2
      split at ht
      · split at ht
        · rw [List.mem_append, List.mem_singleton] at ht
          rcases ht with ht | rfl
          · exact hx t (List.mem_of_mem_dropLast ht)
          · exact hnew
        · rw [List.mem_append, List.mem_singleton] at ht
          rcases ht with ht | rfl
          · exact hx t ht
          · exact hnew
      · rw [List.mem_append, List.mem_singleton] at ht
        rcases ht with ht | rfl
        · exact hx t ht
        · exact hnew
    · exact hx t ht

/-- **C135** for any precision, also if solutions are merged: every value returned without extrapolation
solves the equation for the cubic of one piece, and lies in this piece or at most 512 times the precision
before it. -/
theorem C135_sound (eps : ℝ) (s : Spl ℝ) (f : Fits s) (y : ℝ) (he : 0 ≤ eps)
    (hflat : NotFlat s y) (hcl : ClearInside eps s y) (t : ℝ) (ht : t ∈ solve eps s y true) :
    ∃ i : Nat, i + 1 < s.n ∧ s.x i - 512 * eps ≤ t ∧ t < s.x (i + 1) ∧
      ((s.d i * (t - s.x i) + s.c i) * (t - s.x i) + s.b i) * (t - s.x i) + s.y i = y := by
  have key : ∀ m : Nat, m + 1 ≤ s.n → ∀ t ∈ (List.range m).foldl (addPiece eps s y) [],
      ∃ i : Nat, i + 1 < s.n ∧ s.x i - 512 * eps ≤ t ∧ t < s.x (i + 1) ∧
      ((s.d i * (t - s.x i) + s.c i) * (t - s.x i) + s.b i) * (t - s.x i) + s.y i = y := by
    intro m hm
    induction m with
    | zero => simp
    | succ m ih =>
      rw [List.range_succ, List.foldl_append]
      simp only [List.foldl_cons, List.foldl_nil]
      refine addRoots_sound eps s m _ _ _ (ih (by omega)) ?_
      intro r hr h0 h1
      have htol := tolerance_le eps s m he
      have hne : s.y m - y ≠ 0 ∨ s.b m ≠ 0 ∨ s.c m ≠ 0 ∨ s.d m ≠ 0 := by
        rcases hflat m (by omega) with h | h | h | h
        · exact Or.inl (sub_ne_zero.2 h)
        · exact Or.inr (Or.inl h)
        · exact Or.inr (Or.inr (Or.inl h))
        · exact Or.inr (Or.inr (Or.inr h))
      obtain ⟨_, hz2⟩ := C135_cubic eps (s.y m - y) (s.b m) (s.c m) (s.d m) 1 he hne (hcl m (by omega))
      refine ⟨m, by omega, by linarith, by linarith, ?_⟩
      have := (poly_horner _ _ _ _ _ _).1 ((hz2 r).1 hr)
      simpa using this
  exact key (s.n - 1) (by have := f.two; omega) t ht

/-- The hypotheses hold for the straight line with the precision of the program. -/
example : ClearEverywhere getEps line01 (1 / 2) ∧ Separated getEps line01 (1 / 2) := by
  have hlin : ∀ t, eval line01 t = t := by
    intro t
    rcases lt_or_ge t 0 with h | h
    · rw [eval_left line01 line01_fits t (by simpa [line01] using h.le)]
      simp [line01, fresh]
    · rcases lt_or_ge t 1 with h1 | h1
      · rw [eval_piece line01 line01_fits 0 (by norm_num [line01]) t (by simpa [line01] using h)
          (by simpa [line01] using h1.le)]
        simp [line01, fresh]
      · rw [eval_right line01 line01_fits t (by simpa [line01] using h1)]
        simp [line01, fresh]
  refine ⟨⟨fun i _ => ?_, ?_, ?_⟩, ⟨fun t u ht hu h => ?_, fun i h0 h1 => ?_⟩⟩
  · simp [Clear, line01, fresh]
  · simp [Clear, line01, fresh]
  · simp [Clear, line01, fresh]
  · rw [hlin] at ht hu
    linarith
  · simp only [line01] at h1
    omega

/-- the straight lines through (0, 1), (1, -δ) and (2, 1 - δ) -/
noncomputable def kink (δ : ℝ) : Spl ℝ :=
  { fresh ℝ with
    n := 3, x := fun i => i, y := fun i => if i = 0 then 1 else if i = 1 then -δ else 1 - δ
    b := fun i => if i = 0 then -(1 + δ) else 1, type := .linear }

theorem kink_fits (δ : ℝ) : Fits (kink δ) := by
  refine ⟨by norm_num [kink], ?_, ?_, rfl⟩
  · intro i hi
    simp only [kink]
    push_cast
    linarith
  · intro i hi
    have : i = 0 ∨ i = 1 := by simp [kink] at hi; omega
    rcases this with rfl | rfl
    · norm_num [kink, fresh]
    · norm_num [kink, fresh]
      ring

/-- **C135** solutions on both sides of a node that are closer than the tolerance are merged: with the
precision of the program the zeros at `1/(1+1e-14)` and `1+1e-14` of a spline with the nodes 0, 1 and 2
are returned as one. -/
theorem C135_merge_fails : ∃ (s : Spl ℝ) (t u : ℝ), Fits s ∧ NotFlat s 0 ∧ ClearInside getEps s 0 ∧
    t ≠ u ∧ (s.x 0 ≤ t ∧ t < s.x (s.n - 1) ∧ eval s t = 0) ∧
    (s.x 0 ≤ u ∧ u < s.x (s.n - 1) ∧ eval s u = 0) ∧ solve getEps s 0 true = [u] := by
  have hδ : (0 : ℝ) < 1e-14 := by norm_num
  have f := kink_fits 1e-14
  refine ⟨kink 1e-14, 1 / (1 + 1e-14), 1 + 1e-14, f, ?_, ?_, by norm_num, ?_, ?_, ?_⟩
  · intro i _
    right; left
    simp only [kink]
    split <;> norm_num
  · intro i _
    simp [Clear, kink, fresh]
  · refine ⟨by norm_num [kink], by norm_num [kink], ?_⟩
    rw [eval_piece _ f 0 (by norm_num [kink]) _ (by norm_num [kink]) (by norm_num [kink])]
    norm_num [kink, fresh]
  · refine ⟨by norm_num [kink], by norm_num [kink], ?_⟩
    rw [eval_piece _ f 1 (by norm_num [kink]) _ (by norm_num [kink]) (by norm_num [kink])]
    norm_num [kink, fresh]
  · have r : List.range ((kink 1e-14).n - 1) = [0, 1] := by decide
    have s0 : solveCubic getEps ((kink 1e-14).y 0 - 0) ((kink 1e-14).b 0) ((kink 1e-14).c 0)
        ((kink 1e-14).d 0) 1 = [1 / (1 + 1e-14)] := by
      norm_num [kink, fresh, solveCubic, solveQuadratic, solveLinear]
    have s1 : solveCubic getEps ((kink 1e-14).y 1 - 0) ((kink 1e-14).b 1) ((kink 1e-14).c 1)
        ((kink 1e-14).d 1) 1 = [1e-14] := by
      norm_num [kink, fresh, solveCubic, solveQuadratic, solveLinear]
    have a0 : addRoot getEps (kink 1e-14) 0 [] (1 / (1 + 1e-14)) = [1 / (1 + 1e-14)] := by
      norm_num [addRoot, tolerance, kink, getEps]
    have a1 : addRoot getEps (kink 1e-14) 1 [1 / (1 + 1e-14)] 1e-14 = [1 + 1e-14] := by
      norm_num [addRoot, tolerance, kink, getEps]
    unfold solve
    simp only [if_true]
    rw [r]
    simp only [List.foldl_cons, List.foldl_nil, addPiece]
    rw [s0, s1]
    simp only [List.foldl_cons, List.foldl_nil]
    rw [a0, a1]

end Verif.Spline.Roots
