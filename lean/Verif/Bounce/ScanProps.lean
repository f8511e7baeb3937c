import Verif.Bounce.ScanSpec
import Mathlib.Data.Rat.Floor
import Mathlib.Tactic.Linarith
import Mathlib.Tactic.Positivity
import Mathlib.Tactic.FieldSimp
import Mathlib.Tactic.Ring
import Mathlib.Tactic.NormNum

/-!
# C25 and C56: the list of bounce actions
-/

namespace Verif.Bounce

open Verif Verif.Outcome Verif.Tracer

set_option linter.unusedSectionVars false

variable {K W : Type} [Field K] [LinearOrder K] [IsStrictOrderedRing K]

/-! ### The nearest solution -/

theorem nearestSol_isNearest (t : K) (x : Sol K W) (r : List (Sol K W)) :
    IsNearest t (x :: r) (nearestSol t x r) := by
  unfold nearestSol
  induction r generalizing x with
  | nil => exact ⟨by simp, by simp⟩
  | cons a r ih =>
    simp only [List.foldl_cons]
    split
    · rename_i h
      obtain ⟨h1, h2⟩ := ih a
      refine ⟨?_, ?_⟩
      · exact List.mem_cons_of_mem _ h1
      · intro y hy
        rcases List.mem_cons.1 hy with rfl | hy
        · exact (h2 a (by simp)).trans h.le
        · exact h2 y hy
    · rename_i h
      obtain ⟨h1, h2⟩ := ih x
      refine ⟨?_, ?_⟩
      · rcases List.mem_cons.1 h1 with h1 | h1
        · rw [h1]; simp
        · exact List.mem_cons_of_mem _ (List.mem_cons_of_mem _ h1)
      · intro y hy
        rcases List.mem_cons.1 hy with rfl | hy
        · exact h2 y (by simp)
        · rcases List.mem_cons.1 hy with rfl | hy
          · exact (h2 x (by simp)).trans (not_lt.1 h)
          · exact h2 y (List.mem_cons_of_mem _ hy)

/-! ### Insertion -/

theorem insertSol_split (s : Sol K W) (l : List (Sol K W)) :
    ∃ l1 l2, l = l1 ++ l2 ∧ insertSol s l = l1 ++ s :: l2 := by
  induction l with
  | nil => exact ⟨[], [], rfl, rfl⟩
  | cons x r ih =>
    rw [insertSol]
    split
    · exact ⟨[], x :: r, rfl, rfl⟩
    · obtain ⟨l1, l2, h1, h2⟩ := ih
      exact ⟨x :: l1, l2, by simp [h1], by simp [h2]⟩

theorem length_insertSol (s : Sol K W) (l : List (Sol K W)) :
    (insertSol s l).length = l.length + 1 := by
  obtain ⟨l1, l2, h1, h2⟩ := insertSol_split s l
  rw [h2, h1]; simp; omega

theorem mem_insertSol (s y : Sol K W) (l : List (Sol K W)) :
    y ∈ insertSol s l ↔ y = s ∨ y ∈ l := by
  obtain ⟨l1, l2, h1, h2⟩ := insertSol_split s l
  rw [h2, h1]; simp; tauto

theorem spaced_insertSol {δ : K} (hδ : 0 < δ) (s : Sol K W) (l : List (Sol K W)) (h : Spaced δ l)
    (hd : ∀ x ∈ l, δ ≤ |s.T - x.T|) : Spaced δ (insertSol s l) := by
  induction l with
  | nil => simp [insertSol, Spaced]
  | cons x r ih =>
    rw [Spaced, List.pairwise_cons] at h
    have hx := hd x (by simp)
    rw [insertSol]
    split
    · rename_i hlt
      rw [abs_of_neg (by linarith)] at hx
      rw [Spaced, List.pairwise_cons, List.pairwise_cons]
      refine ⟨?_, h⟩
      intro y hy
      rcases List.mem_cons.1 hy with rfl | hy
      · linarith
      · have := h.1 y hy; linarith
    · rename_i hlt
      rw [abs_of_nonneg (by linarith [not_lt.1 hlt])] at hx
      rw [Spaced, List.pairwise_cons]
      refine ⟨?_, ih h.2 fun y hy => hd y (List.mem_cons_of_mem _ hy)⟩
      intro y hy
      rcases (mem_insertSol _ _ _).1 hy with rfl | hy
      · linarith
      · exact h.1 y hy

/-! ### One calculation -/

/-- **C25** One more calculation of the action: the list either stays as it is, or exactly one entry
is put at its place.  The latter happens iff the temperature is in the window, no solution is closer
than 0.001, the transition is energetically possible (not asked for the first solution) and the action
found is positive; the action is calculated along the path of the nearest solution, or along the
straight path if there is none or if this was requested. -/
theorem C25_calculation (e : Env K W) (l : List (Sol K W)) (t : K) (smart : Bool) :
    ∃ r, Finds e l t smart r ∧
      (((e.tm ≤ t ∧ t ≤ e.tc) ∧ (∀ x ∈ l, 1 / 1000 ≤ |x.T - t|) ∧ (l = [] ∨ e.viable t = true) ∧
        (∃ a, r.1 = .fin a ∧ posRatio a t = true ∧
          ∃ l1 l2, l = l1 ++ l2 ∧ calcAt e l t smart = l1 ++ ⟨t, a, r.2⟩ :: l2)) ∨
       (¬((e.tm ≤ t ∧ t ≤ e.tc) ∧ (∀ x ∈ l, 1 / 1000 ≤ |x.T - t|) ∧ (l = [] ∨ e.viable t = true) ∧
        (∃ a, r.1 = .fin a ∧ posRatio a t = true)) ∧ calcAt e l t smart = l)) := by
  have key : ∀ (l : List (Sol K W)) (r : Flt K × W),
      (∃ a, r.1 = .fin a ∧ posRatio a t = true ∧
          ∃ l1 l2, l = l1 ++ l2 ∧ addSol l t r = l1 ++ ⟨t, a, r.2⟩ :: l2) ∨
      ((¬∃ a, r.1 = .fin a ∧ posRatio a t = true) ∧ addSol l t r = l) := by
    intro l r
    rcases r with ⟨_ | a, w⟩
    · right; exact ⟨by simp, rfl⟩
    · by_cases hp : posRatio a t = true
      · left
        refine ⟨a, rfl, hp, ?_⟩
        obtain ⟨l1, l2, h1, h2⟩ := insertSol_split ⟨t, a, w⟩ l
        exact ⟨l1, l2, h1, by simp [addSol, hp, h2]⟩
      · right
        exact ⟨by simpa using hp, by simp [addSol, hp]⟩
  have hfind : ∃ r, Finds e l t smart r ∧ (e.tm ≤ t → t ≤ e.tc →
      (∀ x ∈ l, 1 / 1000 ≤ |x.T - t|) → (l = [] ∨ e.viable t = true) →
      calcAt e l t smart = addSol l t r) := by
    cases l with
    | nil =>
      refine ⟨_, Or.inl ⟨rfl, rfl⟩, ?_⟩
      intro h1 h2 _ _
      rw [calcAt.eq_def, if_neg (by push Not; exact ⟨h1, h2⟩)]
    | cons x r =>
      have hn := nearestSol_isNearest t x r
      refine ⟨if smart then e.warped (nearestSol t x r).data t else e.straight t, ?_, ?_⟩
      · cases smart with
        | true => exact Or.inr (Or.inr ⟨rfl, _, hn, by simp⟩)
        | false => exact Or.inr (Or.inl ⟨by simp, rfl, by simp⟩)
      · intro h1 h2 h3 h4
        have h3' := h3 _ hn.1
        have h4' : e.viable t = true := by simpa using h4
        rw [calcAt, if_neg (by push Not; exact ⟨h1, h2⟩)]
        dsimp only
        rw [if_neg (not_lt.2 h3'), if_neg (by simp [h4'])]
  obtain ⟨r, hr, hcalc⟩ := hfind
  refine ⟨r, hr, ?_⟩
  by_cases hw : e.tm ≤ t ∧ t ≤ e.tc
  swap
  · right
    refine ⟨fun h => hw h.1, ?_⟩
    rw [calcAt.eq_def, if_pos]
    by_contra hc
    push Not at hc
    exact hw ⟨hc.1, hc.2⟩
  by_cases hs : ∀ x ∈ l, 1 / 1000 ≤ |x.T - t|
  swap
  · right
    refine ⟨fun h => hs h.2.1, ?_⟩
    cases l with
    | nil => simp at hs
    | cons x r' =>
      have hn := nearestSol_isNearest t x r'
      have hlt : |(nearestSol t x r').T - t| < 1 / 1000 := by
        push Not at hs
        obtain ⟨y, hy, hy'⟩ := hs
        have := hn.2 y hy
        rw [abs_sub_comm t, abs_sub_comm t] at this
        exact lt_of_le_of_lt this hy'
      rw [calcAt]
      split
      · rfl
      · dsimp only; rw [if_pos hlt]
  by_cases hv : l = [] ∨ e.viable t = true
  swap
  · right
    refine ⟨fun h => hv h.2.2.1, ?_⟩
    push Not at hv
    cases l with
    | nil => simp at hv
    | cons x r' =>
      have hv' : e.viable t = false := by simpa using hv.2
      rw [calcAt]
      split
      · rfl
      · dsimp only
        split
        · rfl
        · rfl
  have hc := hcalc hw.1 hw.2 hs hv
  rcases key l r with ⟨a, h1, h2, h3⟩ | ⟨h1, h2⟩
  · left
    exact ⟨hw, hs, hv, a, h1, h2, by rw [hc]; exact h3⟩
  · right
    exact ⟨fun h => h1 h.2.2.2, by rw [hc, h2]⟩

theorem length_calcAt (e : Env K W) (l : List (Sol K W)) (t : K) (smart : Bool) :
    calcAt e l t smart = l ∨ (calcAt e l t smart).length = l.length + 1 := by
  obtain ⟨r, -, ⟨-, -, -, a, -, -, l1, l2, h1, h2⟩ | ⟨-, h⟩⟩ := C25_calculation e l t smart
  · right; rw [h2, h1]; simp; omega
  · exact Or.inl h

theorem addSol_good {δ : K} (hδ : 0 < δ) (e : Env K W) (l : List (Sol K W)) (t : K) (r : Flt K × W)
    (hs : Spaced δ l) (hw : InWindow e l) (h1 : e.tm ≤ t) (h2 : t ≤ e.tc)
    (hd : ∀ x ∈ l, δ ≤ |t - x.T|) : Spaced δ (addSol l t r) ∧ InWindow e (addSol l t r) := by
  rcases r with ⟨_ | a, w⟩
  · exact ⟨hs, hw⟩
  · by_cases hp : posRatio a t = true
    · have : addSol l t (Flt.fin a, w) = insertSol ⟨t, a, w⟩ l := by simp [addSol, hp]
      rw [this]
      refine ⟨spaced_insertSol hδ _ _ hs hd, ?_⟩
      intro y hy
      rcases (mem_insertSol _ _ _).1 hy with rfl | hy
      · exact ⟨h1, h2, hp⟩
      · exact hw y hy
    · have : addSol l t (Flt.fin a, w) = l := by simp [addSol, hp]
      rw [this]; exact ⟨hs, hw⟩

theorem calcAt_good {δ : K} (hδ : 0 < δ) (hδ' : δ ≤ 1 / 1000) (e : Env K W) (l : List (Sol K W))
    (t : K) (smart : Bool) (hs : Spaced δ l) (hw : InWindow e l) :
    Spaced δ (calcAt e l t smart) ∧ InWindow e (calcAt e l t smart) := by
  rw [calcAt.eq_def]
  split
  · exact ⟨hs, hw⟩
  · rename_i hwin
    push Not at hwin
    cases l with
    | nil => exact addSol_good hδ e [] t _ hs hw hwin.1 hwin.2 (by simp)
    | cons x r =>
      dsimp only
      split
      · exact ⟨hs, hw⟩
      · rename_i hfar
        split
        · exact ⟨hs, hw⟩
        · refine addSol_good hδ e _ t _ hs hw hwin.1 hwin.2 ?_
          intro y hy
          have := (nearestSol_isNearest t x r).2 y hy
          have h3 := not_lt.1 hfar
          rw [abs_sub_comm] at h3
          exact hδ'.trans (h3.trans this)

/-! ### The initial scan -/

theorem initLoop_eq (e : Env K W) (hd : 0 < e.dT) (hn : e.n ≠ 0) :
    ∀ (m k : Nat), k + m + 1 = e.n → ∀ fuel last l, m < fuel →
      initLoop e fuel (e.tc - ((k : K) + 1) * e.dT) last l =
        some (scanOver e ((List.range m).map fun i : Nat => e.tc - ((k + i : Nat) + 1 : K) * e.dT) last l) := by
  have hN : (e.n : K) * e.dT = e.tc - e.tm := by
    have : (e.n : K) ≠ 0 := by exact_mod_cast hn
    unfold Env.dT; field_simp
  intro m
  induction m with
  | zero =>
    intro k hk fuel last l hf
    obtain ⟨f, rfl⟩ : ∃ f, fuel = f + 1 := ⟨fuel - 1, by omega⟩
    rw [initLoop, if_neg]
    · simp [scanOver]
    · have : (e.n : K) = (k : K) + 1 := by rw [← hk]; push_cast; ring
      rw [this] at hN
      linarith
  | succ m ih =>
    intro k hk fuel last l hf
    obtain ⟨f, rfl⟩ : ∃ f, fuel = f + 1 := ⟨fuel - 1, by omega⟩
    have hge : e.tc - ((k : K) + 1) * e.dT ≥ e.tm + e.dT := by
      have h2 : (e.n : K) = (k : K) + m + 2 := by rw [← hk]; push_cast; ring
      have h3 : (0 : K) ≤ (m : K) * e.dT := by positivity
      rw [h2] at hN
      linarith
    have hnext : e.tc - ((k : K) + 1) * e.dT - e.dT = e.tc - (((k + 1 : Nat) : K) + 1) * e.dT := by
      push_cast; ring
    have hlist : ((List.range (m + 1)).map fun i : Nat => e.tc - ((k + i : Nat) + 1 : K) * e.dT) =
        (e.tc - ((k : K) + 1) * e.dT) ::
          (List.range m).map fun i : Nat => e.tc - ((k + 1 + i : Nat) + 1 : K) * e.dT := by
      rw [List.range_succ_eq_map, List.map_cons, List.map_map]
      simp only [Nat.add_zero, List.cons.injEq, true_and]
      apply List.map_congr_left
      intro i _
      simp only [Function.comp, Nat.succ_eq_add_one]
      push_cast; ring
    rw [hlist, scanOver, initLoop, if_pos hge, hnext]
    by_cases hv : e.viable (e.tc - ((k : K) + 1) * e.dT) = false
    · rw [if_pos hv, if_pos hv]
      exact ih (k + 1) (by omega) f last l (by omega)
    · rw [if_neg hv, if_neg hv]
      dsimp only
      split
      · rfl
      · exact ih (k + 1) (by omega) f _ _ (by omega)

/-- **C56** The initial scan visits exactly the `n - 1` temperatures that divide the window from the
critical temperature down to the lowest common one into `n` equal parts, from top to bottom, and
always ends. -/
theorem C56_initial_scan (e : Env K W) (hw : e.tm < e.tc) (fuel : Nat) (hf : e.n ≤ fuel) :
    initialScan e fuel = some (scanOver e
      ((List.range (e.n - 1)).map fun i : Nat => e.tc - ((i : K) + 1) * ((e.tc - e.tm) / e.n))
      (.fin (-1), none) []) := by
  rw [initialScan]
  split
  · rename_i h; simp [h, scanOver]
  · rename_i h
    have hd : 0 < e.dT := by
      have : (0 : K) < e.n := by exact_mod_cast Nat.pos_of_ne_zero h
      unfold Env.dT
      exact div_pos (by linarith) this
    have := initLoop_eq e hd h (e.n - 1) 0 (by omega) fuel (.fin (-1), none) [] (by omega)
    simpa [Env.dT] using this

theorem scanOver_good {δ : K} (hδ : 0 < δ) (e : Env K W) (ts : List K)
    (hts : ts.Pairwise fun a b => b + δ ≤ a) (hin : ∀ t ∈ ts, e.tm ≤ t ∧ t ≤ e.tc)
    (last : Flt K × Option W) (l : List (Sol K W)) (hs : Spaced δ l) (hw : InWindow e l)
    (hd : ∀ x ∈ l, ∀ t ∈ ts, t + δ ≤ x.T) :
    Spaced δ (scanOver e ts last l) ∧ InWindow e (scanOver e ts last l) := by
  induction ts generalizing last l with
  | nil => exact ⟨hs, hw⟩
  | cons t ts ih =>
    rw [List.pairwise_cons] at hts
    have hin' : ∀ t ∈ ts, e.tm ≤ t ∧ t ≤ e.tc := fun t' h => hin t' (by simp [h])
    have hadd := addSol_good hδ e l t (scanCalc e t last) hs hw (hin t (by simp)).1
      (hin t (by simp)).2 (by
        intro x hx
        have := hd x hx t (by simp)
        rw [abs_sub_comm, abs_of_nonneg (by linarith)]
        linarith)
    have hd' : ∀ x ∈ addSol l t (scanCalc e t last), ∀ t' ∈ ts, t' + δ ≤ x.T := by
      intro x hx t' ht'
      have hmem : x ∈ l ∨ x.T = t := by
        unfold addSol at hx
        split at hx
        · split at hx
          · rcases (mem_insertSol _ _ _).1 hx with rfl | hx
            · exact Or.inr rfl
            · exact Or.inl hx
          · exact Or.inl hx
        · exact Or.inl hx
      rcases hmem with h | h
      · exact hd x h t' (by simp [ht'])
      · rw [h]; exact hts.1 t' ht'
    rw [scanOver]
    split
    · exact ih hts.2 hin' _ _ hs hw fun x hx t' ht' => hd x hx t' (by simp [ht'])
    · dsimp only
      split
      · exact hadd
      · exact ih hts.2 hin' _ _ hadd.1 hadd.2 hd'

theorem grid_spaced (tc d : K) (hd : 0 ≤ d) (δ : K) (h : δ ≤ d) (m : Nat) :
    ((List.range m).map fun i : Nat => tc - ((i : K) + 1) * d).Pairwise fun a b => b + δ ≤ a := by
  rw [List.pairwise_map]
  refine List.Pairwise.imp ?_ List.pairwise_lt_range
  intro a b hab
  have : (a : K) + 1 ≤ b := by exact_mod_cast hab
  nlinarith

/-- The smallest distance between two solutions: 0.001 or the step of the initial scan. -/
def gap (e : Env K W) : K := if e.n = 0 then 1 / 1000 else min (1 / 1000) e.dT

theorem gap_pos (e : Env K W) (hw : e.tm < e.tc) : 0 < gap e := by
  unfold gap
  split
  · norm_num
  · rename_i h
    have : (0 : K) < e.n := by exact_mod_cast Nat.pos_of_ne_zero h
    exact lt_min (by norm_num) (div_pos (by linarith) this)

theorem gap_le (e : Env K W) : gap e ≤ 1 / 1000 := by
  unfold gap
  split
  · exact le_refl _
  · exact min_le_left _ _

theorem initialScan_good (e : Env K W) (hw : e.tm < e.tc) (fuel : Nat) (hf : e.n ≤ fuel) :
    ∃ l, initialScan e fuel = some l ∧ Spaced (gap e) l ∧ InWindow e l := by
  rw [C56_initial_scan e hw fuel hf]
  refine ⟨_, rfl, ?_⟩
  by_cases hn : e.n = 0
  · simp [hn, scanOver, Spaced, InWindow]
  · have hnpos : (0 : K) < e.n := by exact_mod_cast Nat.pos_of_ne_zero hn
    have hd : 0 < (e.tc - e.tm) / e.n := div_pos (by linarith) hnpos
    refine scanOver_good (gap_pos e hw) e _ (grid_spaced _ _ hd.le _ ?_ _) ?_ _ _ (by simp [Spaced])
      (by simp [InWindow]) (by simp)
    · unfold gap; rw [if_neg hn]; exact min_le_right _ _
    · intro t ht
      rw [List.mem_map] at ht
      obtain ⟨i, hi, rfl⟩ := ht
      rw [List.mem_range] at hi
      have h1 : ((i : K) + 1) ≤ e.n := by
        have : i + 1 ≤ e.n := by omega
        exact_mod_cast this
      have h2 : (e.n : K) * ((e.tc - e.tm) / e.n) = e.tc - e.tm := by field_simp
      have h3 : ((i : K) + 1) * ((e.tc - e.tm) / e.n) ≤ e.n * ((e.tc - e.tm) / e.n) :=
        mul_le_mul_of_nonneg_right h1 hd.le
      have h4 : 0 ≤ ((i : K) + 1) * ((e.tc - e.tm) / e.n) := by positivity
      constructor <;> linarith

/-! ### The number of solutions is bounded -/

theorem spaced_length {δ : K} (hδ : 0 < δ) (lo hi : K) (l : List (Sol K W)) (hs : Spaced δ l)
    (hin : ∀ s ∈ l, lo ≤ s.T ∧ s.T ≤ hi) (hlh : lo ≤ hi) : (l.length : K) * δ ≤ hi - lo + δ := by
  induction l generalizing lo with
  | nil => simp; linarith
  | cons x r ih =>
    rw [Spaced, List.pairwise_cons] at hs
    have hx := hin x (by simp)
    rw [List.length_cons]
    push_cast
    by_cases hr : r = []
    · subst hr; simp; linarith
    · have hlast : x.T + δ ≤ hi := by
        obtain ⟨y, hy⟩ := List.exists_mem_of_ne_nil r hr
        exact (hs.1 y hy).trans (hin y (by simp [hy])).2
      have := ih (x.T + δ) hs.2 (fun s h => ⟨hs.1 s h, (hin s (by simp [h])).2⟩) hlast
      linarith

/-- A bound on the number of solutions. -/
theorem exists_bound [Archimedean K] (e : Env K W) (hw : e.tm < e.tc) : ∃ N : Nat, ∀ l : List (Sol K W),
    Spaced (gap e) l → InWindow e l → l.length ≤ N := by
  obtain ⟨N, hN⟩ := Archimedean.arch (e.tc - e.tm + gap e) (gap_pos e hw)
  refine ⟨N, fun l h1 h2 => ?_⟩
  have h3 := spaced_length (gap_pos e hw) e.tm e.tc l h1 (fun s h => ⟨(h2 s h).1, (h2 s h).2.1⟩) hw.le
  rw [nsmul_eq_mul] at hN
  have h4 := le_of_mul_le_mul_right (h3.trans hN) (gap_pos e hw)
  exact_mod_cast h4

/-! ### The scans towards high and low action -/

/-- What all scans keep: the list stays spaced, in the window, and does not get shorter. -/
def Keeps (e : Env K W) (l l' : List (Sol K W)) : Prop :=
  Spaced (gap e) l' ∧ InWindow e l' ∧ l.length ≤ l'.length

theorem calcAt_keeps (e : Env K W) (hw : e.tm < e.tc) (l : List (Sol K W)) (t : K) (smart : Bool)
    (hs : Spaced (gap e) l) (hi : InWindow e l) : Keeps e l (calcAt e l t smart) := by
  obtain ⟨h1, h2⟩ := calcAt_good (gap_pos e hw) (gap_le e) e l t smart hs hi
  refine ⟨h1, h2, ?_⟩
  rcases length_calcAt e l t smart with h | h
  · rw [h]
  · omega

theorem tryBoth_keeps (e : Env K W) (hw : e.tm < e.tc) (l : List (Sol K W)) (t : K)
    (hs : Spaced (gap e) l) (hi : InWindow e l) : Keeps e l (tryBoth e l t) := by
  have h := calcAt_keeps e hw l t true hs hi
  rw [tryBoth]
  split
  · have h' := calcAt_keeps e hw _ t false h.1 h.2.1
    exact ⟨h'.1, h'.2.1, h.2.2.trans h'.2.2⟩
  · exact h

theorem scanLoop_ends (e : Env K W) (hw : e.tm < e.tc)
    (pair : List (Sol K W) → Outcome (Sol K W × Sol K W))
    (hpair : ∀ l, 2 ≤ l.length → ∃ p, pair l = ok p)
    (round : Int → Sol K W → Sol K W → Round K) (N : Nat)
    (hN : ∀ l : List (Sol K W), Spaced (gap e) l → InWindow e l → l.length ≤ N) :
    ∀ fuel i l, N < l.length + fuel → 2 ≤ l.length → Spaced (gap e) l → InWindow e l →
      ∃ l', scanLoop e pair round fuel i l = some (ok l') ∧ Keeps e l l' := by
  intro fuel
  induction fuel with
  | zero =>
    intro i l hf _ hs hi
    have := hN l hs hi
    omega
  | succ fuel ih =>
    intro i l hf h2 hs hi
    obtain ⟨⟨a, b⟩, hp⟩ := hpair l h2
    rw [scanLoop, hp]
    dsimp only
    split
    · exact ⟨l, rfl, hs, hi, le_refl _⟩
    · rename_i t _
      have hk := calcAt_keeps e hw l t true hs hi
      split
      · exact ⟨_, rfl, hk⟩
      · rename_i hne
        obtain ⟨l', h1, h3, h4, h5⟩ := ih i (calcAt e l t true) (by have := hk.2.2; omega)
          (h2.trans hk.2.2) hk.1 hk.2.1
        exact ⟨l', h1, h3, h4, hk.2.2.trans h5⟩
    · rename_i t _
      have hk := tryBoth_keeps e hw l t hs hi
      split
      · exact ⟨_, rfl, hk⟩
      · rename_i hne
        obtain ⟨l', h1, h3, h4, h5⟩ := ih (i + 1) (tryBoth e l t) (by have := hk.2.2; omega)
          (h2.trans hk.2.2) hk.1 hk.2.1
        exact ⟨l', h1, h3, h4, hk.2.2.trans h5⟩

theorem lastTwo_ok {α : Type} (l : List α) (h : 2 ≤ l.length) : ∃ p, lastTwo l = ok p := by
  have : 2 ≤ l.reverse.length := by simpa using h
  unfold lastTwo
  match hr : l.reverse with
  | [] => simp [hr] at this
  | [x] => simp [hr] at this
  | b :: a :: r => exact ⟨_, rfl⟩

theorem firstTwo_ok {α : Type} (l : List α) (h : 2 ≤ l.length) : ∃ p, firstTwo l = ok p := by
  match l with
  | [] => simp at h
  | [x] => simp at h
  | a :: b :: r => exact ⟨_, rfl⟩

section Floor

variable [FloorRing K]

theorem foldl_keeps (e : Env K W) (hw : e.tm < e.tc) (ts : List K) (l : List (Sol K W))
    (hs : Spaced (gap e) l) (hi : InWindow e l) :
    Keeps e l (ts.foldl (fun l t => calcAt e l t true) l) := by
  induction ts generalizing l with
  | nil => exact ⟨hs, hi, le_refl _⟩
  | cons t ts ih =>
    have h := calcAt_keeps e hw l t true hs hi
    have h' := ih (calcAt e l t true) h.1 h.2.1
    exact ⟨h'.1, h'.2.1, h.2.2.trans h'.2.2⟩

theorem refine_keeps (e : Env K W) (hw : e.tm < e.tc) (l : List (Sol K W))
    (hs : Spaced (gap e) l) (hi : InWindow e l) : Keeps e l (refine e l) := by
  have h := foldl_keeps e hw (nextTemps l) l hs hi
  have h' := foldl_keeps e hw (nextTemps (refineOnce e l)) (refineOnce e l) h.1 h.2.1
  rw [refine]
  split
  · exact h
  · exact ⟨h'.1, h'.2.1, h.2.2.trans h'.2.2⟩

/-- The state after the scans. -/
def Settled (e : Env K W) (s : State K W) : Prop :=
  Spaced (gap e) s.sols ∧ InWindow e s.sols ∧
    ((4 ≤ s.sols.length ∧ s.status = .success ∧ s.spline = s.sols.map fun x => (x.T, x.action)) ∨
     (s.sols.length < 4 ∧ s.status = .failure ∧ s.spline = []))

theorem settled_set (e : Env K W) (st : GWStatus) (l : List (Sol K W)) (hs : Spaced (gap e) l)
    (hi : InWindow e l) : Settled e (setBounceSol ⟨l, st, []⟩) := by
  unfold setBounceSol
  by_cases h : l.length < 4
  · simp only [h, if_true]
    exact ⟨hs, hi, Or.inr ⟨h, rfl, rfl⟩⟩
  · simp only [h, if_false]
    exact ⟨hs, hi, Or.inl ⟨not_lt.1 h, rfl, rfl⟩⟩

theorem fullScan_ends (e : Env K W) (hw : e.tm < e.tc) (N : Nat)
    (hN : ∀ l : List (Sol K W), Spaced (gap e) l → InWindow e l → l.length ≤ N)
    (fuel : Nat) (hf : N < fuel) (st : GWStatus) (l : List (Sol K W)) (h2 : 2 ≤ l.length)
    (hs : Spaced (gap e) l) (hi : InWindow e l) :
    ∃ s, fullScan e fuel ⟨l, st, []⟩ = some (ok s) ∧ Settled e s := by
  have low := scanLoop_ends e hw firstTwo firstTwo_ok (lowRound e) N hN
  have high := scanLoop_ends e hw lastTwo lastTwo_ok (highRound e) N hN
  obtain ⟨l1, e1, s1, i1, n1⟩ := low fuel 0 l (by omega) h2 hs hi
  obtain ⟨l2, e2, s2, i2, n2⟩ := high fuel 0 l1 (by omega) (by omega) s1 i1
  obtain ⟨s3, i3, n3⟩ := refine_keeps e hw l2 s2 i2
  obtain ⟨l4, e4, s4, i4, n4⟩ := low fuel 0 (refine e l2) (by omega) (by omega) s3 i3
  obtain ⟨l5, e5, s5, i5, n5⟩ := high fuel 0 l4 (by omega) (by omega) s4 i4
  refine ⟨_, ?_, settled_set e st l5 s5 i5⟩
  simp only [fullScan, scanLow, scanHigh, e1, e2, e4, e5, andThen]

/-- **C25, C56** For every window of positive width, every behaviour of the potentials and of the
action calculation, the construction ends, without undefined behaviour, after a bounded number of
rounds.  The solutions are then at least 0.001 (or a step of the initial scan) apart and ascending,
inside the window and of positive action; the calculation counts as successful iff there are at least
four of them, and then the interpolation uses exactly these. -/
theorem C56_construction_ends [Archimedean K] (e : Env K W) (hw : e.tm < e.tc) (hc : 0 < e.tc) :
    ∃ bound, ∀ fuel ≥ bound, ∃ s, construct e fuel = some (ok s) ∧ Settled e s := by
  obtain ⟨N, hN⟩ := exists_bound e hw
  refine ⟨N + e.n + 1, fun fuel hf => ?_⟩
  obtain ⟨l, hl, hs, hi⟩ := initialScan_good e hw fuel (by omega)
  rw [construct, if_pos hc, hl]
  dsimp only
  rw [secondaryScan]
  match l, hs, hi with
  | [], hs, hi => exact ⟨_, rfl, hs, hi, Or.inr ⟨by simp, rfl, rfl⟩⟩
  | [x], hs, hi =>
    dsimp only
    have hk := calcAt_keeps e hw [x] (x.T - (x.T - e.tm) / 10) true hs hi
    split
    · exact ⟨_, rfl, settled_set e _ _ hk.1 hk.2.1⟩
    · rename_i hne
      have h1 : 1 ≤ (calcAt e [x] (x.T - (x.T - e.tm) / 10) true).length := by simpa using hk.2.2
      exact fullScan_ends e hw N hN fuel (by omega) _ _ (by omega) hk.1 hk.2.1
  | x :: y :: r, hs, hi =>
    exact fullScan_ends e hw N hN fuel (by omega) _ _ (by simp) hs hi

/-- Whatever number of rounds is allowed, a construction that ends gives the same state. -/
theorem initLoop_mono (e : Env K W) : ∀ fuel t last l r, initLoop e fuel t last l = some r →
    initLoop e (fuel + 1) t last l = some r := by
  intro fuel
  induction fuel with
  | zero => intro t last l r h; simp [initLoop] at h
  | succ fuel ih =>
    intro t last l r h
    rw [initLoop] at h ⊢
    split
    · rename_i h1
      rw [if_pos h1] at h
      split
      · rename_i h2
        rw [if_pos h2] at h
        exact ih _ _ _ _ h
      · rename_i h2
        rw [if_neg h2] at h
        dsimp only at h ⊢
        split
        · rename_i h3; rw [if_pos h3] at h; exact h
        · rename_i h3; rw [if_neg h3] at h; exact ih _ _ _ _ h
    · rename_i h1
      rw [if_neg h1] at h
      exact h

theorem scanLoop_mono (e : Env K W) (pair : List (Sol K W) → Outcome (Sol K W × Sol K W))
    (round : Int → Sol K W → Sol K W → Round K) : ∀ fuel i l r,
    scanLoop e pair round fuel i l = some r → scanLoop e pair round (fuel + 1) i l = some r := by
  intro fuel
  induction fuel with
  | zero => intro i l r h; simp [scanLoop] at h
  | succ fuel ih =>
    intro i l r h
    rw [scanLoop] at h ⊢
    split <;> rename_i hp <;> rw [hp] at h <;> dsimp only at h
    · split <;> rename_i hr <;> rw [hr] at h <;> dsimp only at h
      · exact h
      · dsimp only
        split
        · rename_i h3; rw [if_pos h3] at h; exact h
        · rename_i h3; rw [if_neg h3] at h; exact ih _ _ _ h
      · dsimp only
        split
        · rename_i h3; rw [if_pos h3] at h; exact h
        · rename_i h3; rw [if_neg h3] at h; exact ih _ _ _ h
    · exact h
    · exact h

theorem andThen_mono {α β : Type} {x x' : Option (Outcome α)} {f f' : α → Option (Outcome β)}
    (hx : ∀ r, x = some r → x' = some r) (hf : ∀ a r, f a = some r → f' a = some r) (r : Outcome β)
    (h : andThen x f = some r) : andThen x' f' = some r := by
  unfold andThen at h
  match hx' : x with
  | none => simp at h
  | some (.ok a) => rw [hx _ rfl]; exact hf _ _ h
  | some (.err a) => rw [hx _ rfl]; exact h
  | some (.ub a) => rw [hx _ rfl]; exact h

theorem fullScan_mono (e : Env K W) (fuel : Nat) (s : State K W) (r : Outcome (State K W))
    (h : fullScan e fuel s = some r) : fullScan e (fuel + 1) s = some r := by
  unfold fullScan at h ⊢
  refine andThen_mono (fun r h => scanLoop_mono e _ _ _ _ _ r h) ?_ r h
  intro l r h
  refine andThen_mono (fun r h => scanLoop_mono e _ _ _ _ _ r h) ?_ r h
  intro l r h
  refine andThen_mono (fun r h => scanLoop_mono e _ _ _ _ _ r h) ?_ r h
  intro l r h
  exact andThen_mono (fun r h => scanLoop_mono e _ _ _ _ _ r h) (fun _ _ h => h) r h

theorem construct_mono (e : Env K W) (fuel : Nat) (r : Outcome (State K W))
    (h : construct e fuel = some r) : construct e (fuel + 1) = some r := by
  unfold construct at h ⊢
  by_cases hc : e.tc > 0
  · rw [if_pos hc] at h ⊢
    match hi : initialScan e fuel with
    | none => rw [hi] at h; simp at h
    | some l =>
      rw [hi] at h
      have : initialScan e (fuel + 1) = some l := by
        unfold initialScan at hi ⊢
        split
        · rename_i h; rw [if_pos h] at hi; exact hi
        · rename_i h; rw [if_neg h] at hi; exact initLoop_mono _ _ _ _ _ _ hi
      rw [this]
      dsimp only at h ⊢
      unfold secondaryScan at h ⊢
      match l with
      | [] => exact h
      | [x] =>
        dsimp only at h ⊢
        split
        · rename_i h3; rw [if_pos h3] at h; exact h
        · rename_i h3; rw [if_neg h3] at h; exact fullScan_mono _ _ _ _ h
      | x :: y :: r => exact fullScan_mono _ _ _ _ h
  · rw [if_neg hc] at h ⊢
    exact h

/-- **C25** After construction and any further sequence of action calculations, the recorded
temperatures ascend strictly, lie in the window and belong to positive actions. -/
theorem C25_list [Archimedean K] (e : Env K W) (hw : e.tm < e.tc) (fuel : Nat) (o : Outcome (State K W))
    (h : construct e fuel = some o) :
    ∃ s, o = ok s ∧ ∀ calls : List (K × Bool),
      let l := calls.foldl (fun l c => calcAt e l c.1 c.2) s.sols
      (l.Pairwise fun a b => a.T < b.T) ∧ InWindow e l := by
  have hgood : ∃ s, o = ok s ∧ Spaced (gap e) s.sols ∧ InWindow e s.sols := by
    by_cases hc : 0 < e.tc
    · obtain ⟨b, hb⟩ := C56_construction_ends e hw hc
      obtain ⟨s, hs, h1, h2, -⟩ := hb (fuel + b) (by omega)
      have : ∀ m, construct e (fuel + m) = some o := by
        intro m
        induction m with
        | zero => exact h
        | succ m ih => exact construct_mono e _ _ ih
      rw [this b] at hs
      exact ⟨s, by simpa using hs, h1, h2⟩
    · rw [construct, if_neg hc] at h
      exact ⟨_, by simpa using h.symm, by simp [Spaced], by simp [InWindow]⟩
  obtain ⟨s, ho, h1, h2⟩ := hgood
  refine ⟨s, ho, fun calls => ?_⟩
  have key : ∀ (calls : List (K × Bool)) (l : List (Sol K W)), Spaced (gap e) l → InWindow e l →
      Spaced (gap e) (calls.foldl (fun l c => calcAt e l c.1 c.2) l) ∧
      InWindow e (calls.foldl (fun l c => calcAt e l c.1 c.2) l) := by
    intro calls
    induction calls with
    | nil => intro l a b; exact ⟨a, b⟩
    | cons c calls ih =>
      intro l a b
      have := calcAt_keeps e hw l c.1 c.2 a b
      exact ih _ this.1 this.2.1
  obtain ⟨a, b⟩ := key calls s.sols h1 h2
  refine ⟨a.imp ?_, b⟩
  intro x y hxy
  have := gap_pos e hw
  linarith

/-- **C25** The calculation is reported successful iff at least four actions were found, whatever
happens to the list before `SetBounceSol`. -/
theorem C25_success_iff (s : State K W) :
    ((setBounceSol s).status = .success ↔ 4 ≤ s.sols.length) ∧
    ((setBounceSol s).status = .failure ↔ s.sols.length < 4) ∧ (setBounceSol s).sols = s.sols := by
  unfold setBounceSol
  by_cases h : s.sols.length < 4
  · simp [h]
  · simp [h]; omega

end Floor

/-! ### A window of width zero -/

/-- **C56** If the critical temperature equals the lowest common temperature and the transition is not
possible there, the initial scan never ends. -/
theorem C56_endless (e : Env K W) (hw : e.tm = e.tc) (hn : e.n ≠ 0) (hv : e.viable e.tc = false) :
    ∀ fuel, initialScan e fuel = none := by
  have hd : e.dT = 0 := by unfold Env.dT; rw [hw]; simp
  have key : ∀ fuel last l, initLoop e fuel e.tc last l = none := by
    intro fuel
    induction fuel with
    | zero => intros; rfl
    | succ fuel ih =>
      intro last l
      rw [initLoop, if_pos (by rw [hd, hw]; simp), if_pos hv, hd, sub_zero]
      exact ih last l
  intro fuel
  rw [initialScan, if_neg hn, hd, sub_zero]
  exact key fuel _ _

/-! ### Examples -/

/-- Window from 50 to 100, ten temperatures, an action over temperature that falls linearly from 250
at 100 to 0 at 50. -/
def exEnv : Env ℚ Unit where
  tm := 50
  tc := 100
  n := 10
  viable := fun t => decide (t < 99)
  straight := fun t => (.fin (5 * (t - 50) * t), ())
  warped := fun _ t => (.fin (5 * (t - 50) * t), ())

example : (exEnv.tm < exEnv.tc ∧ 0 < exEnv.tc) := by decide +kernel

example : (match construct exEnv 200 with
    | some (.ok s) => decide (s.status = .success) && decide (s.sols.length = 17)
    | _ => false) = true := by decide +kernel

example : ((calcAt exEnv [⟨60, 3000, ()⟩, ⟨80, 12000, ()⟩] 70 true).map (·.T)) = [60, 70, 80] := by
  decide +kernel

example : (calcAt exEnv [⟨60, 3000, ()⟩, ⟨80, 12000, ()⟩] (60 + 1 / 2000) true).length = 2 := by
  decide +kernel

example : ({exEnv with tm := 100}).tm = ({exEnv with tm := 100}).tc := rfl

end Verif.Bounce
