import Verif.Parser.Model
import Verif.Parser.Spec

namespace Verif.Parser

open Outcome Utility Spec

/-- An argument is declared when `add_argument` was called for it. -/
def Declared (p : Parser) (name : Str) : Prop :=
  (find p.required (lower name)).isSome ∨ (find p.optional (lower name)).isSome

instance (p : Parser) (n : Str) : Decidable (Declared p n) := by unfold Declared; infer_instance

theorem toLower_toLower (c : Char) : c.toLower.toLower = c.toLower := by
  have key : ∀ d : Char, ¬ (d.val ≥ 'A'.val ∧ d.val ≤ 'Z'.val) → d.toLower = d := by
    intro d hd
    simp only [Char.toLower, ge_iff_le]
    rw [dif_neg hd]
  by_cases h : c.val ≥ 'A'.val ∧ c.val ≤ 'Z'.val
  · apply key
    have e : c.toLower.val = c.val + ('a'.val - 'A'.val) := by
      simp only [Char.toLower]
      rw [dif_pos h]
    rw [e]
    intro hh
    obtain ⟨h1, h2⟩ := h
    obtain ⟨_, h4⟩ := hh
    rw [UInt32.le_iff_toNat_le] at h4
    rw [ge_iff_le, UInt32.le_iff_toNat_le] at h1
    rw [UInt32.le_iff_toNat_le] at h2
    have ea : ('A' : Char).val.toNat = 65 := rfl
    have ez : ('Z' : Char).val.toNat = 90 := rfl
    have ed : ('a'.val - 'A'.val : UInt32).toNat = 32 := by decide
    rw [UInt32.toNat_add, ed] at h4
    omega
  · rw [key c h, key c h]

theorem lower_lower (s : Str) : lower (lower s) = lower s := by
  simp only [lower, List.map_map]
  congr 1
  funext c
  exact toLower_toLower c

theorem find_assign (m : ArgMap) (k v k' : Str) :
    find (assign m k v) k' = if k' = k ∧ (find m k).isSome then some (some v) else find m k' := by
  induction m with
  | nil => simp [assign, find]
  | cons e m ih =>
    obtain ⟨a, w⟩ := e
    simp only [assign, find]
    by_cases ha : a = k
    · subst ha
      by_cases hk : a = k'
      · subst hk; simp [find]
      · simp [find, hk, Ne.symm hk]
    · simp only [ha, if_false, find]
      by_cases hk : a = k'
      · subst hk; simp [ha]
      · simp [hk, ih]

theorem find_assign_isSome (m : ArgMap) (k v k' : Str) :
    (find (assign m k v) k').isSome = (find m k').isSome := by
  rw [find_assign]
  by_cases h : k' = k ∧ (find m k).isSome
  · rw [if_pos h]; obtain ⟨rfl, h⟩ := h; simp [h]
  · rw [if_neg h]

theorem find_emplace (m : ArgMap) (k k' : Str) :
    find (emplace m k) k' = if k' = k ∧ find m k = none then some none else find m k' := by
  unfold emplace
  have happ : ∀ m : ArgMap, find m k = none →
      find (m ++ [(k, none)]) k' = if k' = k then some none else find m k' := by
    intro m
    induction m with
    | nil => intro _; simp [find, eq_comm]
    | cons e m ih =>
      obtain ⟨a, w⟩ := e
      intro h
      simp only [find] at h
      by_cases ha : a = k
      · simp [ha] at h
      · simp only [ha, if_false] at h
        simp only [List.cons_append, find]
        by_cases hk : a = k'
        · subst hk; simp [ha]
        · simp [hk, ih h]
  cases h : find m k with
  | some v => simp
  | none =>
    simp only [happ m h]
    by_cases hk : k' = k <;> simp [hk]

theorem declared_congr {p p' : Parser} (h1 : ∀ k, (find p'.required k).isSome = (find p.required k).isSome)
    (h2 : ∀ k, (find p'.optional k).isSome = (find p.optional k).isSome) (n : Str) :
    Declared p' n ↔ Declared p n := by
  simp [Declared, h1, h2]

/-- Setting the value of a declared argument, as in one iteration of `add_input`. -/
def setValue (p : Parser) (k v : Str) : Parser :=
  if (find p.required (lower k)).isSome then
    { p with required := assign p.required (lower k) v }
  else { p with optional := assign p.optional (lower k) v }

theorem declared_setValue (p : Parser) (k v n : Str) :
    Declared (setValue p k v) n ↔ Declared p n := by
  unfold setValue
  split
  · exact declared_congr (by simp [find_assign_isSome]) (by simp) n
  · exact declared_congr (by simp) (by simp [find_assign_isSome]) n

theorem addKeyValues_cons (p : Parser) (lg : Logger) (k v : Str) (rest : List (Str × Str)) :
    addKeyValues p lg ((k, v) :: rest) =
      if lower k = "help".toList then addKeyValues (printHelp p) lg rest
      else if Declared p k then addKeyValues (setValue p k v) lg rest
      else ⟨p, lg, err .parser⟩ := by
  rw [addKeyValues]
  simp only [Declared, setValue]
  by_cases h : lower k = "help".toList
  · simp [h]
  · by_cases hr : (find p.required (lower k)).isSome
    · simp [hr]
    · by_cases ho : (find p.optional (lower k)).isSome
      · simp [hr, ho]
      · simp [hr, ho]

theorem getValue_setValue (p : Parser) (k v n : Str) (hk : Declared p k) :
    getValue (setValue p k v) n = if sameName k n then ok v else getValue p n := by
  unfold setValue
  by_cases hs : sameName k n
  · have hs' : lower n = lower k := hs.symm
    rw [if_pos hs]
    by_cases hr : (find p.required (lower k)).isSome
    · simp [getValue, hr, find_assign, hs']
    · have ho : (find p.optional (lower k)).isSome := hk.resolve_left hr
      have hr' : find p.required (lower k) = none := by simpa using hr
      simp [getValue, hr', find_assign, hs', ho]
  · have hs' : ¬ lower n = lower k := fun h => hs h.symm
    rw [if_neg hs]
    by_cases hr : (find p.required (lower k)).isSome
    · simp [getValue, hr, find_assign, hs']
    · simp [getValue, hr, find_assign, hs']

theorem getValue_printHelp (p : Parser) (n : Str) : getValue (printHelp p) n = getValue p n := rfl

theorem declared_printHelp (p : Parser) (n : Str) : Declared (printHelp p) n ↔ Declared p n :=
  Iff.rfl

theorem all_iff_find (m : ArgMap) (hnd : (m.map Prod.fst).Nodup) :
    (m.all fun e => e.2.isSome) = true ↔ ∀ k w, find m k = some w → w.isSome := by
  induction m with
  | nil => simp [find]
  | cons e m ih =>
    obtain ⟨a, w⟩ := e
    simp only [List.map_cons, List.nodup_cons] at hnd
    have hfind : find m a = none := by
      have : ∀ m : ArgMap, a ∉ m.map Prod.fst → find m a = none := by
        intro m
        induction m with
        | nil => simp [find]
        | cons e m ih =>
          intro h
          simp only [List.map_cons, List.mem_cons, not_or] at h
          simp [find, Ne.symm h.1, ih h.2]
      exact this m hnd.1
    rw [List.all_cons, Bool.and_eq_true, ih hnd.2]
    constructor
    · rintro ⟨h1, h2⟩ k w' hf
      simp only [find] at hf
      by_cases hk : a = k
      · simp only [hk, if_true, Option.some.injEq] at hf; rw [← hf]; exact h1
      · simp only [hk, if_false] at hf; exact h2 k w' hf
    · intro h
      refine ⟨h a w (by simp [find]), ?_⟩
      intro k w' hf
      by_cases hk : a = k
      · subst hk; rw [hfind] at hf; exact absurd hf (by simp)
      · exact h k w' (by simp [find, hk, hf])

end Verif.Parser
