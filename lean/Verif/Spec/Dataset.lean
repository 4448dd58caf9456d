import Mathlib.Order.Defs.LinearOrder
import Mathlib.Algebra.BigOperators.Group.List.Basic
import Verif.Model.Basic
/-!
# Specification: the matrix of a list of records
-/

namespace Implicit.Spec

variable {R : Type} [AddCommMonoid R] {I U : Type}

/-- What the records say about `i` and `u`: the sum of their values. -/
def recordSum [DecidableEq I] [DecidableEq U] (records : List (I × U × R)) (i : I) (u : U) : R :=
  ((records.filter fun r => r.1 = i ∧ r.2.1 = u).map fun r => r.2.2).sum

/-- The sparse matrix (rows of column/value pairs, number of columns) of records with numeric keys: as many rows and
columns as the largest keys require, sorted columns without repetition, an entry exactly where there is a record,
namely the sum. -/
structure MatrixOf (records : List (Nat × Nat × R)) (rows : List (List (Nat × R))) (cols : Nat) : Prop where
  rowBound : ∀ r ∈ records, r.1 < rows.length
  rowTight : ∃ r ∈ records, r.1 + 1 = rows.length
  colBound : ∀ r ∈ records, r.2.1 < cols
  colTight : ∃ r ∈ records, r.2.1 + 1 = cols
  sorted : ∀ row ∈ rows, (row.map Prod.fst).Pairwise (· < ·)
  cell : ∀ (a b : Nat) (v : R), (∃ row, rows[a]? = some row ∧ (b, v) ∈ row) ↔
    (∃ w, (a, b, w) ∈ records) ∧ v = recordSum records a b

/-- The names of a dimension: sorted, without repetition, exactly those that occur. -/
structure NamesOf [LT I] (keys : List I) (names : List I) : Prop where
  sorted : names.Pairwise (· < ·)
  mem : ∀ i, i ∈ names ↔ i ∈ keys

/-- Named records: `items` names the rows, `users` the columns. -/
structure Describes [LinearOrder I] [LinearOrder U] (records : List (I × U × R)) (items : List I) (users : List U)
    (rows : List (List (Nat × R))) (cols : Nat) : Prop where
  itemNames : NamesOf (records.map fun r => r.1) items
  userNames : NamesOf (records.map fun r => r.2.1) users
  rowCount : rows.length = items.length
  colCount : cols = users.length
  sorted : ∀ row ∈ rows, (row.map Prod.fst).Pairwise (· < ·)
  inside : ∀ row ∈ rows, ∀ e ∈ row, e.1 < cols
  cell : ∀ (a b : Nat) (i : I) (u : U), items[a]? = some i → users[b]? = some u →
    ∀ v, (∃ row, rows[a]? = some row ∧ (b, v) ∈ row) ↔
      (∃ w, (i, u, w) ∈ records) ∧ v = recordSum records i u

end Implicit.Spec
