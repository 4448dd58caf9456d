import Verif.Spec.Split
/-!
# Specification: the matrix and the way it is stored

A sparse matrix is a table of numbers.  The same table can be stored in many ways: the entries of a row in any order, a number in
several parts, zeros written down or left out.
-/

namespace Implicit.Spec

variable {R : Type} [AddCommMonoid R]

/-- The two lists of stored rows are the same table of numbers. -/
def SameTable (C C' : List (List (Nat × R))) : Prop :=
  C.length = C'.length ∧ ∀ u i, entry C u i = entry C' u i

/-- Every number is stored once and zeros are left out; the order is free. -/
def Canonical (C : List (List (Nat × R))) : Prop :=
  ∀ row ∈ C, (row.map Prod.fst).Nodup ∧ ∀ e ∈ row, e.2 ≠ 0

/-- Every number is stored once and zeros are left out, for a list of triples. -/
def CanonicalTriples (es : List (Nat × Nat × R)) : Prop :=
  (es.map fun e => (e.1, e.2.1)).Nodup ∧ ∀ e ∈ es, e.2.2 ≠ 0

/-- The same cells are stored (perhaps with other values). -/
def SameStored (C C' : List (List (Nat × R))) : Prop :=
  C.length = C'.length ∧ ∀ u i, StoredAt C u i ↔ StoredAt C' u i

end Implicit.Spec
