import Verif.Spec.Knn
/-!
# Specification of matrices given by triples or by rows
-/

namespace Implicit.Spec

variable {R : Type}

/-- Cell `(r, c)` of the matrix given by a list of triples; repeated triples are added. -/
def total [AddCommMonoid R] (es : List (Nat × Nat × R)) (r c : Nat) : R :=
  ((es.filter fun e => e.1 = r ∧ e.2.1 = c).map fun e => e.2.2).sum

/-- Cell `(r, c)` of a matrix given by its rows. -/
def entry [AddCommMonoid R] (rows : List (List (Nat × R))) (r c : Nat) : R := cell (rows.getD r []) c

/-- Is cell `(r, c)` stored? -/
def StoredAt (rows : List (List (Nat × R))) (r c : Nat) : Prop := Stored (rows.getD r []) c

end Implicit.Spec
