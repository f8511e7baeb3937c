/-!
# Outcomes of C++ code

A C++ expression either yields a value, throws an exception, or has undefined behaviour.
-/

namespace Verif

/-- Kinds of C++ exceptions that the modelled code can raise. -/
inductive Err where
  /-- `std::runtime_error` -/
  | runtime
  /-- a thrown string literal (`throw("...")` in `utility.h`), *not* derived from `std::exception` -/
  | cstring
  /-- `std::out_of_range` (from `.at`, `substr`) -/
  | outOfRange
  /-- `BSMPT::parserException` -/
  | parser
  /-- `std::invalid_argument` -/
  | invalidArgument
  deriving DecidableEq, Repr

/-- Kinds of undefined behaviour. -/
inductive UB where
  /-- read or write outside an array/vector -/
  | outOfBounds
  /-- signed integer overflow -/
  | overflow
  /-- unbounded recursion (stack exhaustion) -/
  | recursion
  /-- dereferencing an end iterator -/
  | endDeref
  /-- `front()`/`back()`/`pop()` on an empty container -/
  | emptyContainer
  /-- use of an uninitialised variable -/
  | uninitialised
  deriving DecidableEq, Repr

/-- Result of running a piece of C++ code. -/
inductive Outcome (α : Type) where
  | ok (a : α)
  | err (e : Err)
  | ub (u : UB)
  deriving DecidableEq, Repr

namespace Outcome

variable {α β : Type}

/-- Sequential composition: exceptions and undefined behaviour propagate. -/
def bind (x : Outcome α) (f : α → Outcome β) : Outcome β :=
  match x with
  | ok a => f a
  | err e => err e
  | ub u => ub u

instance : Monad Outcome where
  pure := ok
  bind := bind

@[simp] theorem pure_def (a : α) : (pure a : Outcome α) = ok a := rfl
@[simp] theorem bind_ok (a : α) (f : α → Outcome β) : (ok a >>= f) = f a := rfl
@[simp] theorem bind_err (e : Err) (f : α → Outcome β) : (err e >>= f) = err e := rfl
@[simp] theorem bind_ub (u : UB) (f : α → Outcome β) : (ub u >>= f) = ub u := rfl
@[simp] theorem map_ok (a : α) (f : α → β) : (f <$> (ok a : Outcome α)) = ok (f a) := rfl

instance : LawfulMonad Outcome := LawfulMonad.mk'
  (id_map := by intro _ x; cases x <;> rfl)
  (pure_bind := by intros; rfl)
  (bind_assoc := by intro _ _ _ x _ _; cases x <;> rfl)

theorem mapM_ok {f : α → Outcome β} {g : α → β} {l : List α}
    (h : ∀ a ∈ l, f a = ok (g a)) : l.mapM f = ok (l.map g) := by
  induction l with
  | nil => simp
  | cons a l ih =>
    simp [List.mapM_cons, h a (by simp), ih (fun b hb => h b (by simp [hb]))]

theorem mapM_ok_length {f : α → Outcome β} {l : List α} {r : List β}
    (h : l.mapM f = ok r) : r.length = l.length := by
  induction l generalizing r with
  | nil => simp at h; simp [← h]
  | cons a l ih =>
    rw [List.mapM_cons] at h
    cases hfa : f a with
    | ok b =>
      rw [hfa] at h
      cases hl : l.mapM f with
      | ok bs => rw [hl] at h; simp at h; simp [← h, ih hl]
      | err e => rw [hl] at h; simp at h
      | ub u => rw [hl] at h; simp at h
    | err e => rw [hfa] at h; simp at h
    | ub u => rw [hfa] at h; simp at h

/-- `v[i]` on a `std::vector`: undefined outside the range. -/
def idx (l : List α) (i : Nat) : Outcome α :=
  match l[i]? with
  | some a => ok a
  | none => ub .outOfBounds

/-- `v.at(i)` on a `std::vector`: throws outside the range. -/
def at' (l : List α) (i : Nat) : Outcome α :=
  match l[i]? with
  | some a => ok a
  | none => err .outOfRange

theorem idx_of_lt {l : List α} {i : Nat} (h : i < l.length) : idx l i = ok l[i] := by
  simp [idx, List.getElem?_eq_getElem h]

theorem idx_of_ge {l : List α} {i : Nat} (h : l.length ≤ i) : idx l i = ub .outOfBounds := by
  simp [idx, List.getElem?_eq_none h]

theorem at'_of_lt {l : List α} {i : Nat} (h : i < l.length) : at' l i = ok l[i] := by
  simp [at', List.getElem?_eq_getElem h]

theorem at'_of_ge {l : List α} {i : Nat} (h : l.length ≤ i) : at' l i = err .outOfRange := by
  simp [at', List.getElem?_eq_none h]

end Outcome

end Verif
