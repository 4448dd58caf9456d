/-!
# Specification: updating named rows of a table
-/

namespace Implicit.Spec

/-- `new` is the table `old` in which row `ids[k]` was replaced by `xs[k]` (for an id that occurs more
than once the last occurrence counts), extended with rows `zero` just far enough to have all ids. -/
structure RowsUpdated {α : Type} (zero : α) (ids : List Nat) (xs : List α) (old new : List α) :
    Prop where
  /-- No row is lost. -/
  keepsLength : old.length ≤ new.length
  /-- All ids exist afterwards. -/
  hasIds : ∀ i ∈ ids, i < new.length
  /-- The table is no longer than needed. -/
  tight : new.length = old.length ∨ ∃ i ∈ ids, new.length = i + 1
  named : ∀ (k u : Nat) x, ids[k]? = some u → xs[k]? = some x → (∀ k' > k, ids[k']? ≠ some u) →
    new[u]? = some x
  kept : ∀ u, u < old.length → u ∉ ids → new[u]? = old[u]?
  zeros : ∀ u, old.length ≤ u → u < new.length → u ∉ ids → new[u]? = some zero

end Implicit.Spec
