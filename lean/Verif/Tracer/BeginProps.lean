import Verif.Tracer.Begin
import Verif.Tracer.VacuumProps
import Verif.Tracer.ModesProps
import Mathlib.Tactic.FieldSimp

/-!
# C124: the constructor of the vacuum structure
-/

namespace Verif.Tracer.Begin

set_option linter.unusedSectionVars false

open Outcome Verif.Tracer Spec

variable {P K : Type} [Field K] [LinearOrder K] [IsStrictOrderedRing K]

/-! ### Specification -/

/-- `r` contains every phase of `phases` with all its minima, possibly more minima and more phases, and all
of them are well formed. -/
def Kept (phases r : List (Phase P K)) : Prop :=
  (∀ q ∈ r, Good q) ∧ ∃ old new, r = old ++ new ∧ List.Forall₂ Grown phases old

/-! ### Lemmas -/

theorem forall₂_trans {α : Type} {R : α → α → Prop} (ht : ∀ a b c, R a b → R b c → R a c) {l1 l2 l3 : List α}
    (h1 : List.Forall₂ R l1 l2) (h2 : List.Forall₂ R l2 l3) : List.Forall₂ R l1 l3 := by
  induction h1 generalizing l3 with
  | nil => cases h2; exact List.Forall₂.nil
  | cons h _ ih =>
    cases h2 with
    | cons h' t' => exact List.Forall₂.cons (ht _ _ _ h h') (ih t')

theorem forall₂_split {α : Type} {R : α → α → Prop} {l1 l2 r : List α} (h : List.Forall₂ R (l1 ++ l2) r) :
    ∃ r1 r2, r = r1 ++ r2 ∧ List.Forall₂ R l1 r1 := by
  induction l1 generalizing r with
  | nil => exact ⟨[], r, rfl, List.Forall₂.nil⟩
  | cons a l1 ih =>
    cases h with
    | cons h t =>
      obtain ⟨r1, r2, rfl, h'⟩ := ih t
      exact ⟨_ :: r1, r2, rfl, List.Forall₂.cons h h'⟩

theorem kept_trans {a b c : List (Phase P K)} (h1 : Kept a b) (h2 : Kept b c) : Kept a c := by
  obtain ⟨-, o1, n1, rfl, f1⟩ := h1
  obtain ⟨g2, o2, n2, rfl, f2⟩ := h2
  obtain ⟨r1, r2, rfl, f3⟩ := forall₂_split f2
  refine ⟨g2, r1, r2 ++ n2, by simp, forall₂_trans (R := Grown) (fun _ _ _ h h' => grown_trans h h') f1 f3⟩

theorem forall₂_self {α : Type} {R : α → α → Prop} (h : ∀ a, R a a) (l : List α) : List.Forall₂ R l l := by
  induction l with
  | nil => exact List.Forall₂.nil
  | cons a l ih => exact List.Forall₂.cons (h a) ih

theorem kept_refl (a : List (Phase P K)) (h : ∀ p ∈ a, Good p) : Kept a a :=
  ⟨h, a, [], by simp, forall₂_self grown_refl a⟩

theorem found_shape (track : P → K → K → List (Minimum P K)) (dist : P → P → K) (nVEV : K)
    (m : Minimum P K) (phases l : List (Phase P K)) (r : Option Nat)
    (h : minimumFoundAlready track dist nVEV m phases = ok (r, l)) :
    List.Forall₂ (fun p q => ∃ l1, q = Phase.addAll p l1) phases l := by
  induction phases generalizing l r with
  | nil => cases h; exact List.Forall₂.nil
  | cons p rest ih =>
    rw [minimumFoundAlready] at h
    split_ifs at h
    · cases hr : minimumFoundAlready track dist nVEV m rest with
      | ok x =>
        rw [hr] at h
        cases h
        exact List.Forall₂.cons ⟨[], rfl⟩ (ih _ _ hr)
      | err e => rw [hr] at h; cases h
      | ub e => rw [hr] at h; cases h
    · cases hg : p.get track m.temp with
      | ok y =>
        obtain ⟨y1, y2⟩ := y
        rw [hg, bind_ok] at h
        obtain ⟨_, _, l1, e, -⟩ := get_shape track p y2 m.temp y1 hg
        dsimp only at h
        split_ifs at h
        · cases h
          exact List.Forall₂.cons ⟨l1, e⟩ (forall₂_self (fun a => ⟨[], rfl⟩) rest)
        · cases hr : minimumFoundAlready track dist nVEV m rest with
          | ok x =>
            rw [hr] at h
            cases h
            exact List.Forall₂.cons ⟨l1, e⟩ (ih _ _ hr)
          | err e => rw [hr] at h; cases h
          | ub e => rw [hr] at h; cases h
      | err e => rw [hg] at h; cases h
      | ub e => rw [hg] at h; cases h

theorem kept_found (track : P → K → K → List (Minimum P K)) (dist : P → P → K) (nVEV : K)
    (m : Minimum P K) (phases l : List (Phase P K)) (r : Option Nat) (hg : ∀ p ∈ phases, Good p)
    (h : minimumFoundAlready track dist nVEV m phases = ok (r, l)) : Kept phases l := by
  obtain ⟨h1, h2⟩ := forall₂_good _ _ (found_shape track dist nVEV m phases l r h) hg
  exact ⟨h1, l, [], by simp, h2⟩

theorem ofMinima_ok (l : List (Minimum P K)) (h : (Phase.ofMinima l).mins ≠ []) :
    Ordered (Phase.ofMinima l) ∧ RangeExact (Phase.ofMinima l) := by
  have hl : l ≠ [] := by rintro rfl; exact h rfl
  exact C20_constructed l [] hl

theorem kept_add (track track3 : P → K → K → List (Minimum P K)) (dist : P → P → K)
    (phases r : List (Phase P K)) (l : List (Minimum P K)) (hg : ∀ p ∈ phases, Good p)
    (h : addPhase track track3 dist phases (Phase.ofMinima l) = ok r) : Kept phases r := by
  obtain ⟨h1, h2⟩ := C51_registered track track3 dist phases r _ (ofMinima_ok l) hg h
  rcases h2 with ⟨rfl, -⟩ | ⟨old, new, e, f, -⟩
  · exact kept_refl _ h1
  · exact ⟨h1, old, new, e, f⟩

theorem kept_lookUp (e : Env P K) (m : Minimum P K) (ms : List (Minimum P K)) (phases r : List (Phase P K))
    (hg : ∀ p ∈ phases, Good p) (h : lookUp e m (Phase.ofMinima ms) phases = ok r) : Kept phases r := by
  unfold lookUp at h
  cases hf : minimumFoundAlready e.track e.dist e.nVEV m phases with
  | ok x =>
    rw [hf, bind_ok] at h
    have k := kept_found _ _ _ _ _ x.2 x.1 hg hf
    cases hx : x.1 with
    | some i => rw [hx] at h; cases h; exact k
    | none =>
      rw [hx] at h
      exact kept_trans k (kept_add _ _ _ _ _ _ k.1 h)
  | err e => rw [hf] at h; cases h
  | ub e => rw [hf] at h; cases h

theorem kept_saved (e : Env P K) (ms : List (Minimum P K)) (phases r : List (Phase P K))
    (hg : ∀ p ∈ phases, Good p) (h : savedLoop e ms phases = ok r) : Kept phases r := by
  induction ms generalizing phases with
  | nil => cases h; exact kept_refl _ hg
  | cons m ms ih =>
    rw [savedLoop] at h
    cases hl : lookUp e m (Phase.bothWays e.track e.prep m.point m.temp e.tLow e.tHigh) phases with
    | ok x =>
      rw [hl, bind_ok] at h
      have k := kept_lookUp e m _ phases x hg hl
      exact kept_trans k (ih x k.1 h)
    | err e => rw [hl] at h; cases h
    | ub e => rw [hl] at h; cases h

theorem fromGlobal_shape (track : P → K → K → List (Minimum P K)) (glob : K → P) (t a b : K)
    (ph : Phase P K) (h : Phase.fromGlobal track glob t a b = ok ph) : ∃ l, ph = Phase.ofMinima l := by
  unfold Phase.fromGlobal at h
  dsimp only at h
  split_ifs at h <;> cases h <;> exact ⟨_, rfl⟩

theorem kept_grid (e : Env P K) (ts : List K) (phases r : List (Phase P K)) (hg : ∀ p ∈ phases, Good p)
    (h : gridLoop e ts phases = ok r) : Kept phases r := by
  induction ts generalizing phases with
  | nil => cases h; exact kept_refl _ hg
  | cons t ts ih =>
    rw [gridLoop] at h
    cases hf : minimumFoundAlready e.track e.dist e.nVEV ⟨e.glob t, t, 0, 0⟩ phases with
    | ok x =>
      rw [hf, bind_ok] at h
      have k := kept_found _ _ _ _ _ x.2 x.1 hg hf
      cases hx : x.1 with
      | some i => rw [hx] at h; exact kept_trans k (ih _ k.1 h)
      | none =>
        rw [hx] at h
        dsimp only at h
        cases hp : Phase.fromGlobal e.track e.glob t e.tHigh e.tLow with
        | ok ph =>
          rw [hp, bind_ok] at h
          obtain ⟨ms, rfl⟩ := fromGlobal_shape _ _ _ _ _ _ hp
          cases ha : addPhase e.track e.track3 e.dist x.2 (Phase.ofMinima ms) with
          | ok y =>
            rw [ha, bind_ok] at h
            have k2 := kept_add _ _ _ _ _ _ k.1 ha
            exact kept_trans k (kept_trans k2 (ih _ k2.1 h))
          | err e => rw [ha] at h; cases h
          | ub e => rw [ha] at h; cases h
        | err e => rw [hp] at h; cases h
        | ub e => rw [hp] at h; cases h
    | err e => rw [hf] at h; cases h
    | ub e => rw [hf] at h; cases h

/-! ### C124 -/

/-- C124: with one of the modes 0 to 3, a vacuum beyond 10¹⁰ GeV at the lowest temperature ends the search: no
phase is traced, the status is a failure. -/
theorem C124_unbounded (e : Env P K) (r : Searches P K) (sort : List (Phase P K) → List (Phase P K))
    (region : VState P K → Option (VState P K)) (mode : Int) (only : Bool) (x : K) (hm : 0 ≤ mode)
    (hx : e.ewsb e.lowPoint = .fin x) (hb : 10 ^ 10 < x) :
    construct e r sort region mode only = some (ok (⟨[], .failure, .noCoexPairs⟩, [])) := by
  unfold construct search
  rw [if_neg (by omega), if_pos hm, hx, if_pos ((Flt.gt_fin _ _).2 hb)]
  rfl

/-- C124: the search that is run, for a bounded potential (a `NaN` counts as bounded): the tracer by default,
the modes 0 to 2 by number, and mode 2 after mode 1 if mode 3 was chosen and the global minima are not
covered.  The searches from above start from the minimum found at high temperature, if it was set. -/
theorem C124_search (e : Env P K) (r : Searches P K) (s : VState P K) :
    (∀ s', r.tracer s = some (ok s') → search e r (-1) s = some (ok (s', false))) ∧
    ((∀ x, e.ewsb e.lowPoint = .fin x → x ≤ 10 ^ 10) → ∀ high,
      (e.highVEV = some high ∨ e.highVEV = none ∧ e.highPoint = high) →
      (∀ s', r.mode0 e.lowPoint high s = some (ok s') → search e r 0 s = some (ok (s', false))) ∧
      (∀ s', r.mode1 e.lowPoint high s = some (ok s') → search e r 1 s = some (ok (s', false))) ∧
      (∀ s', r.mode2 e.lowPoint high s = some (ok s') → search e r 2 s = some (ok (s', false))) ∧
      (∀ s', r.mode1 e.lowPoint high s = some (ok s') → s'.vac ≠ .noGlobMinCoverage →
        search e r 3 s = some (ok (s', false))) ∧
      (∀ s' s'', r.mode1 e.lowPoint high s = some (ok s') → s'.vac = .noGlobMinCoverage →
        r.mode2 e.lowPoint high ⟨s'.phases, .success, s'.coex⟩ = some (ok s'') →
        search e r 3 s = some (ok (s'', false)))) := by
  refine ⟨fun s' h => by rw [search, if_pos rfl, h]; rfl, fun hb high hh => ?_⟩
  have hg : ¬ Flt.gt (e.ewsb e.lowPoint) (.fin (10 ^ 10)) = true := by
    cases hx : e.ewsb e.lowPoint with
    | nan => simp
    | fin x => rw [Flt.gt_fin]; exact not_lt.2 (hb x hx)
  have hd : e.highVEV.getD e.highPoint = high := by
    rcases hh with h | ⟨h, h'⟩
    · rw [h]; rfl
    · rw [h]; exact h'
  refine ⟨fun s' h => ?_, fun s' h => ?_, fun s' h => ?_, fun s' h hv => ?_, fun s' s'' h hv h2 => ?_⟩
  · rw [search, if_neg (by decide), if_pos (by decide), if_neg hg, hd]
    dsimp only
    rw [if_pos rfl, h]; rfl
  · rw [search, if_neg (by decide), if_pos (by decide), if_neg hg, hd]
    dsimp only
    rw [if_neg (by decide), if_pos rfl, h]; rfl
  · rw [search, if_neg (by decide), if_pos (by decide), if_neg hg, hd]
    dsimp only
    rw [if_neg (by decide), if_neg (by decide), if_pos rfl, h]; rfl
  · rw [search, if_neg (by decide), if_pos (by decide), if_neg hg, hd]
    dsimp only
    rw [if_neg (by decide), if_neg (by decide), if_neg (by decide), if_pos rfl, h, andThen]
    rw [if_neg hv]
  · rw [search, if_neg (by decide), if_pos (by decide), if_neg hg, hd]
    dsimp only
    rw [if_neg (by decide), if_neg (by decide), if_neg (by decide), if_pos rfl, h, andThen]
    rw [if_pos hv, h2]
    rfl

/-- C124: an exception in the search, or a search that does not end, is that of the constructor. -/
theorem C124_search_exception (e : Env P K) (r : Searches P K) (sort : List (Phase P K) → List (Phase P K))
    (region : VState P K → Option (VState P K)) (mode : Int) (only : Bool) :
    (∀ x, search e r mode ⟨[], .success, .noCoexPairs⟩ = some (err x) →
      construct e r sort region mode only = some (err x)) ∧
    (search e r mode ⟨[], .success, .noCoexPairs⟩ = none → construct e r sort region mode only = none) := by
  refine ⟨fun x h => ?_, fun h => ?_⟩
  · rw [construct, h]; rfl
  · rw [construct, h]; rfl

/-- C124: after the search, the electroweak minimum and the saved minima are looked up and, if they are new,
traced; every phase found before is kept with all its minima, and all phases are well formed. -/
theorem C124_extras_keep (e : Env P K) (s s' : VState P K) (hg : ∀ p ∈ s.phases, Good p)
    (h : extras e s = ok s') : Kept s.phases s'.phases ∧ s'.vac = s.vac ∧ s'.coex = s.coex := by
  unfold extras at h
  cases h1 : lookUp e ⟨e.ew, 0, 0, 0⟩ (Phase.oneWay e.track e.prep e.ew e.tLow e.tHigh) s.phases with
  | ok l =>
    rw [h1, bind_ok] at h
    have k := kept_lookUp e _ _ _ _ hg h1
    cases h2 : savedLoop e (e.saved l) l with
    | ok l' =>
      rw [h2, bind_ok] at h
      cases h
      exact ⟨kept_trans k (kept_saved e _ _ _ k.1 h2), rfl, rfl⟩
    | err e => rw [h2] at h; cases h
    | ub e => rw [h2] at h; cases h
  | err e => rw [h1] at h; cases h
  | ub e => rw [h1] at h; cases h

/-- C124: a minimum that a phase already has is not traced again, one at a temperature that no phase covers
is. -/
theorem C124_lookup (e : Env P K) (hn : 0 < e.nVEV) (m x : Minimum P K) (ph : Phase P K)
    (phases : List (Phase P K)) :
    (∀ p rest, phases = p :: rest → Ordered p → ExistsAt p m.temp → x ∈ p.mins → x.temp = m.temp →
      e.dist m.point x.point < e.nVEV → lookUp e m ph phases = ok phases) ∧
    ((∀ p ∈ phases, ¬ ExistsAt p m.temp) →
      lookUp e m ph phases = addPhase e.track e.track3 e.dist phases ph) := by
  refine ⟨?_, fun h => ?_⟩
  · rintro p rest rfl ho he hx ht hd
    have : minimumFoundAlready e.track e.dist e.nVEV m (p :: rest) = ok (some 0, p :: rest) := by
      rw [minimumFoundAlready, if_neg (by rintro (h | h); exacts [absurd he.2 (not_le.2 h), absurd he.1 (not_le.2 h)]),
        get_known e.track p m.temp x ho hx ht, bind_ok]
      dsimp only
      rw [if_pos ((div_lt_one hn).2 hd)]
    rw [lookUp, this]
    rfl
  · have : minimumFoundAlready e.track e.dist e.nVEV m phases = ok (none, phases) := by
      induction phases with
      | nil => rfl
      | cons p rest ih =>
        have hp := h p (by simp)
        rw [ExistsAt, not_and_or, not_le, not_le] at hp
        rw [minimumFoundAlready, if_pos hp.symm, ih (fun q hq => h q (by simp [hq]))]
        rfl
    rw [lookUp, this]
    rfl

/-- C124 is false of the code: the electroweak minimum is looked up at temperature 0.  If the lowest
temperature is positive, no phase exists there, and it is always traced, even if it has been found. -/
theorem C124_ew_retraced_fails (e : Env P K) (hn : 0 < e.nVEV) (hl : 0 < e.tLow)
    (phases : List (Phase P K)) (hp : ∀ p ∈ phases, e.tLow ≤ p.tLow) :
    lookUp e ⟨e.ew, 0, 0, 0⟩ (Phase.oneWay e.track e.prep e.ew e.tLow e.tHigh) phases =
      addPhase e.track e.track3 e.dist phases
        (Phase.ofMinima (e.track (e.prep e.ew) e.tLow e.tHigh)) := by
  refine (C124_lookup e hn _ ⟨e.ew, 0, 0, 0⟩ _ phases).2 ?_
  intro p h he
  exact absurd he.1 (not_le.2 (lt_of_lt_of_le hl (hp p h)))

/-- C124: the equally spaced temperatures of the search from below: as many as asked for, none at the ends, and
cutting the range into equal pieces. -/
theorem C124_grid (a b : K) (hab : a < b) (num : Int) :
    (grid a b num).length = num.toNat ∧
    (∀ i : Nat, i < num.toNat → (grid a b num)[i]? = some (a + (b - a) * ((i + 1 : Nat) : K) / ((num.toNat + 1 : Nat) : K))) ∧
    ∀ t ∈ grid a b num, a < t ∧ t < b := by
  have key : ∀ i : Nat, i < num.toNat → (grid a b num)[i]? =
      some (a + (b - a) * ((i + 1 : Nat) : K) / ((num.toNat + 1 : Nat) : K)) := by
    intro i hi
    rw [grid, List.getElem?_map, List.getElem?_range hi, Option.map_some]
    have e : ((num + 1 : Int) : K) = ((num.toNat + 1 : Nat) : K) := by
      have : (num + 1 : Int) = ((num.toNat + 1 : Nat) : Int) := by push_cast; omega
      rw [this]
      norm_cast
    rw [e]
    congr 2
    rw [div_mul_eq_mul_div]
  refine ⟨by simp [grid], key, ?_⟩
  intro t ht
  obtain ⟨i, hi, rfl⟩ := List.mem_iff_getElem.1 ht
  have hi' : i < num.toNat := by simpa [grid] using hi
  have hk := key i hi'
  rw [List.getElem?_eq_getElem hi] at hk
  rw [Option.some.inj hk]
  have hp : (0 : K) < ((num.toNat + 1 : Nat) : K) := by exact_mod_cast Nat.succ_pos _
  have hba : 0 < b - a := sub_pos.2 hab
  have h1 : (0 : K) < ((i + 1 : Nat) : K) := by exact_mod_cast Nat.succ_pos _
  have h2 : ((i + 1 : Nat) : K) < ((num.toNat + 1 : Nat) : K) := by exact_mod_cast Nat.succ_lt_succ hi'
  refine ⟨by have := div_pos (mul_pos hba h1) hp; linarith, ?_⟩
  have : (b - a) * ((i + 1 : Nat) : K) / ((num.toNat + 1 : Nat) : K) < b - a := by
    rw [div_lt_iff₀ hp]
    exact mul_lt_mul_of_pos_left h2 hba
  linarith

/-- C124: a new phase found on this grid is traced from there in both directions; no temperature of the grid
raises the exception for a start outside of the range. -/
theorem C124_grid_phase (e : Env P K) (hr : e.tLow < e.tHigh) (num : Int) (t : K)
    (ht : t ∈ grid e.tLow e.tHigh num) :
    Phase.fromGlobal e.track e.glob t e.tHigh e.tLow =
      ok (Phase.ofMinima (e.track (e.glob t) t e.tLow ++ e.track (e.glob t) t e.tHigh)) := by
  obtain ⟨h1, h2⟩ := (C124_grid e.tLow e.tHigh hr num).2.2 t ht
  exact (C20_directions e.track e.glob t e.tHigh e.tLow).2.2
    (by rw [min_eq_right hr.le]; exact h1) (by rw [max_eq_left hr.le]; exact h2)

/-- C124: the search from below.  An unbounded potential is a failure and leaves the phases as they are;
otherwise the phase of the global minimum at the lowest temperature is added, then those found on the
grid; the phases known before are kept. -/
theorem C124_bottom (e : Env P K) (num : Int) (s : VState P K) (hg : ∀ p ∈ s.phases, Good p) :
    (∀ x, e.ewsb (e.glob e.tLow) = .fin x → 10 ^ 10 < x →
      bottom e num s = ok ⟨s.phases, .failure, s.coex⟩) ∧
    ((∀ x, e.ewsb (e.glob e.tLow) = .fin x → x ≤ 10 ^ 10) → ∀ s', bottom e num s = ok s' →
      s'.vac = s.vac ∧ s'.coex = s.coex ∧ ∃ l, Kept s.phases l ∧ Kept l s'.phases ∧
        addPhase e.track e.track3 e.dist s.phases
          (Phase.ofMinima (e.track (e.glob e.tLow) e.tLow e.tHigh)) = ok l ∧
        gridLoop e (grid e.tLow e.tHigh num) l = ok s'.phases) := by
  refine ⟨fun x hx hb => ?_, fun hb s' h => ?_⟩
  · rw [bottom, hx, if_pos ((Flt.gt_fin _ _).2 hb)]
  · have hgt : ¬ Flt.gt (e.ewsb (e.glob e.tLow)) (.fin (10 ^ 10)) = true := by
      cases hx : e.ewsb (e.glob e.tLow) with
      | nan => simp
      | fin x => rw [Flt.gt_fin]; exact not_lt.2 (hb x hx)
    rw [bottom, if_neg hgt, (C20_directions e.track e.glob e.tLow e.tLow e.tHigh).1 rfl, bind_ok] at h
    cases ha : addPhase e.track e.track3 e.dist s.phases
        (Phase.ofMinima (e.track (e.glob e.tLow) e.tLow e.tHigh)) with
    | ok l =>
      rw [ha, bind_ok] at h
      have k := kept_add _ _ _ _ _ _ hg ha
      cases hl : gridLoop e (grid e.tLow e.tHigh num) l with
      | ok l' =>
        rw [hl, bind_ok] at h
        cases h
        exact ⟨rfl, rfl, l, k, kept_grid e _ _ _ k.1 hl, rfl, hl⟩
      | err e => rw [hl] at h; cases h
      | ub e => rw [hl] at h; cases h
    | err e => rw [ha] at h; cases h
    | ub e => rw [ha] at h; cases h

/-- The first minimum on the grid that belongs to no phase is traced. -/
theorem C124_grid_step (e : Env P K) (t : K) (ts : List K) (phases : List (Phase P K))
    (h : ∀ p ∈ phases, ¬ ExistsAt p t) :
    gridLoop e (t :: ts) phases =
      (Phase.fromGlobal e.track e.glob t e.tHigh e.tLow >>= fun ph =>
        addPhase e.track e.track3 e.dist phases ph >>= fun l => gridLoop e ts l) := by
  have : minimumFoundAlready e.track e.dist e.nVEV ⟨e.glob t, t, 0, 0⟩ phases = ok (none, phases) := by
    induction phases with
    | nil => rfl
    | cons p rest ih =>
      have hp := h p (by simp)
      rw [ExistsAt, not_and_or, not_le, not_le] at hp
      rw [minimumFoundAlready, if_pos (by exact hp.symm), ih (fun q hq => h q (by simp [hq]))]
      rfl
  rw [gridLoop, this, bind_ok]

theorem finish_success (sort : List (Phase P K) → List (Phase P K))
    (region : VState P K → Option (VState P K)) (mode : Int) (only : Bool) (s : VState P K)
    (h : s.phases ≠ []) (hv : s.vac = .success) :
    finishVacuum sort region mode only s =
      (region { s with phases := renumber (sort s.phases) }).map fun s =>
        (s, if s.coex = .success ∧ only = false then setCoexPhases s.phases else []) := by
  rw [finishVacuum]
  have : ¬ s.phases.length = 0 := by simpa using h
  simp only [this, if_false]
  rw [if_pos (Or.inl hv)]

/-- A tracker that finds the same point at both ends and in the middle. -/
def demo : Env ℚ ℚ where
  tLow := 0
  tHigh := 300
  track x s t := [⟨x, s, 0, 0⟩, ⟨x, (s + t) / 2, 0, 0⟩, ⟨x, t, 0, 0⟩]
  track3 x s t := [⟨x, s, 0, 0⟩, ⟨x, t, 0, 0⟩]
  dist a b := |a - b|
  nVEV := 1
  prep := id
  glob t := if t < 150 then 246 else 0
  ewsb x := .fin x
  ew := 246
  lowPoint := 246
  highPoint := 0
  highVEV := none
  saved _ := []

/-- C124 is false of the code for a mode that does not exist: nothing is searched for, only the electroweak
minimum is traced, and the status is a success. -/
theorem C124_unknown_mode_fails (r : Searches ℚ ℚ) (mode : Int) (hm : mode < -1 ∨ 3 < mode) :
    (∀ s, search demo r mode s = some (ok (s, false))) ∧
    ∃ x, construct demo r id (setCoexRegion (fun l _ => (l, 0)) 0 1) mode false = some (ok x) ∧
      x.1.vac = .success ∧ x.1.phases.map (fun p => (p.tLow, p.tHigh)) = [(0, 300)] ∧ x.2.length = 0 := by
  have h : ∀ s, search demo r mode s = some (ok (s, false)) := by
    intro s
    rw [search, if_neg (by omega)]
    rcases hm with hm | hm
    · rw [if_neg (by omega)]
    · rw [if_pos (by omega), if_neg (by decide +kernel)]
      dsimp only
      rw [if_neg (by omega), if_neg (by omega), if_neg (by omega), if_neg (by omega)]
  refine ⟨h, ?_⟩
  rw [construct, h, andThen]
  have hx : ∃ s, extras demo ⟨[], .success, .noCoexPairs⟩ = ok s ∧ s.vac = .success ∧
      s.phases = [⟨0, 0, 300, [⟨246, 0, 0, -1⟩, ⟨246, 150, 0, 0⟩, ⟨246, 300, 0, 1⟩]⟩] ∧
      s.coex = .noCoexPairs := by
    refine ⟨⟨[⟨0, 0, 300, [⟨246, 0, 0, -1⟩, ⟨246, 150, 0, 0⟩, ⟨246, 300, 0, 1⟩]⟩], .success, .noCoexPairs⟩,
      ?_, rfl, rfl, rfl⟩
    have : lookUp demo ⟨demo.ew, 0, 0, 0⟩ (Phase.oneWay demo.track demo.prep demo.ew demo.tLow demo.tHigh) [] =
        ok [⟨0, 0, 300, [⟨246, 0, 0, -1⟩, ⟨246, 150, 0, 0⟩, ⟨246, 300, 0, 1⟩]⟩] := by decide +kernel
    rw [extras, this]
    rfl
  obtain ⟨s, h1, h2, h3, h4⟩ := hx
  rw [if_neg (by decide), h1, andThen]
  obtain ⟨ph, vac, coex⟩ := s
  dsimp only at h2 h3 h4
  subst h2 h3 h4
  have hr : (setCoexRegion (fun l _ => (l, 0)) 0 1
      (⟨renumber [⟨0, 0, 300, [⟨246, 0, 0, -1⟩, ⟨246, 150, 0, 0⟩, ⟨246, 300, 0, 1⟩]⟩], .success,
        .noCoexPairs⟩ : VState ℚ ℚ)).map
      (fun s => (s.vac, s.phases.map (fun p => (p.tLow, p.tHigh)), s.coex)) =
      some (.success, [(0, 300)], .noCoexPairs) := by decide +kernel
  rw [finish_success id _ _ _ _ (by simp) rfl]
  dsimp only [id]
  obtain ⟨s, h5, h6⟩ := Option.map_eq_some_iff.1 hr
  rw [h5]
  refine ⟨_, rfl, (Prod.mk.inj h6).1, (Prod.mk.inj (Prod.mk.inj h6).2).1, ?_⟩
  dsimp only
  rw [if_neg (by rw [(Prod.mk.inj (Prod.mk.inj h6).2).2]; simp)]
  rfl

/-- With the electroweak and the symmetric phase, the search from below of the example gives both. -/
example : (match bottom demo 3 ⟨[], .success, .noCoexPairs⟩ with
    | ok s => s.phases.map (fun p => (p.tLow, p.tHigh, p.mins.head?.map (·.point)))
    | _ => []) = [(0, 300, some 246), (0, 300, some 0)] := by
  decide +kernel

end Verif.Tracer.Begin
