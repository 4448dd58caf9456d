/-!
# Specification: updating named rows of a table when a row may be named more than once
-/

namespace Implicit.Spec

/-- `new` is the table `old`, extended with zero rows just far enough to have all ids, in which every element of a
named row was replaced by that element of one of the rows given for it. -/
structure RowsMixed {f : Nat} {R : Type} (zero : R) (ids : List Nat) (xs old new : List (Fin f → R)) : Prop where
  keepsLength : old.length ≤ new.length
  hasIds : ∀ i ∈ ids, i < new.length
  tight : new.length = old.length ∨ ∃ i ∈ ids, new.length = i + 1
  named : ∀ (u : Nat) y, u ∈ ids → new[u]? = some y → ∀ j, ∃ (k : Nat) (x : Fin f → R),
    ids[k]? = some u ∧ xs[k]? = some x ∧ y j = x j
  kept : ∀ u, u < old.length → u ∉ ids → new[u]? = old[u]?
  zeros : ∀ u, old.length ≤ u → u < new.length → u ∉ ids → new[u]? = some fun _ => zero

end Implicit.Spec
