import Verif.Helpers

/-! Specification vocabulary for nested lists. -/

namespace Nappy.Spec

/-- The parts have the lengths `dims`, level by level, with values at the lowest level. -/
def Deep.Parts {α : Type} : List Nat → List (Nappy.Deep α) → Prop
  | [], _ => False
  | [n], l => l.length = n ∧ ∀ d ∈ l, ∃ x, d = .val x
  | n :: m :: dims, l => l.length = n ∧ ∀ d ∈ l, ∃ l', d = .list l' ∧ Deep.Parts (m :: dims) l'

end Nappy.Spec
