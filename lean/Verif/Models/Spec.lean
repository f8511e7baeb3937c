import Verif.Outcome

/-!
# Specification of the embedding of minimizer coordinates
-/

namespace Verif.Models.Spec

/-- `w` is the field vector with the values `v` at the positions `order` and zero elsewhere. -/
def IsEmbedding {α : Type} [Zero α] (n : Nat) (order : List Nat) (v w : List α) : Prop :=
  w.length = n ∧
  (∀ (k i : Nat) (x : α), order[k]? = some i → v[k]? = some x → w[i]? = some x) ∧
  (∀ i : Nat, i < n → i ∉ order → w[i]? = some 0)

end Verif.Models.Spec
