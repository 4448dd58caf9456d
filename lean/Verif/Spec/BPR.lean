import Mathlib.Data.List.Basic
/-!
# Vocabulary for the statements about BPR and LMF

A matrix is the list of the column lists of its rows, in the caller's order.
-/

namespace Implicit.Spec

/-- Column `i` is stored in row `u`. -/
def Likes (matrix : List (List Nat)) (u i : Nat) : Prop := ∃ r, matrix[u]? = some r ∧ i ∈ r

/-- Row `u` has no stored entry. -/
def ColdUser (matrix : List (List Nat)) (u : Nat) : Prop := ∀ i, ¬ Likes matrix u i

/-- Column `i` has no stored entry. -/
def ColdItem (matrix : List (List Nat)) (i : Nat) : Prop := ∀ u, ¬ Likes matrix u i

/-- Number of stored entries. -/
def nnz (matrix : List (List Nat)) : Nat := (matrix.map List.length).sum

end Implicit.Spec
