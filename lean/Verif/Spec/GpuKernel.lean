/-!
# What device arrays hold
-/

namespace Implicit.Spec

variable {R : Type} {f : Nat}

/-- The array `m` holds the matrix with rows `X` in row-major order. -/
def HoldsRows (m : Nat → R) (X : List (Fin f → R)) : Prop :=
  ∀ (u : Nat) x, X[u]? = some x → ∀ t : Fin f, m (u * f + t.val) = x t

/-- The arrays `indptr`, `indices`, `data` hold the sparse matrix with rows `C`. -/
def HoldsCsr (indptr indices : Nat → Nat) (data : Nat → R) (C : List (List (Nat × R))) : Prop :=
  ∀ (u : Nat) row, C[u]? = some row → indptr (u + 1) = indptr u + row.length ∧
    ∀ (k : Nat) e, row[k]? = some e → indices (indptr u + k) = e.1 ∧ data (indptr u + k) = e.2

end Implicit.Spec
