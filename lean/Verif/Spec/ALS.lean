import Mathlib.Algebra.BigOperators.Fin
import Mathlib.Algebra.Order.Field.Basic
import Mathlib.Algebra.Order.Group.Abs
/-!
# The weighted regularised least squares problem of "Collaborative Filtering for Implicit Feedback
Datasets", stated densely: every cell of the matrix has a confidence and a preference.
-/

namespace Implicit.Spec

variable {R : Type} [LinearOrder R] [Field R] {f : Nat}

/-- A row of a canonical CSR matrix with `n` columns: every column is stored at most once (values may
be positive, negative or zero). -/
structure ValidRow (n : Nat) (row : List (Nat × R)) : Prop where
  nodup : (row.map Prod.fst).Nodup
  lt : ∀ e ∈ row, e.1 < n

/-- Confidence of cell `i` of a sparse row: 1 when nothing is stored, the absolute value otherwise. -/
def confidence (row : List (Nat × R)) (i : Nat) : R :=
  match row.lookup i with
  | none => 1
  | some c => |c|

/-- Preference of cell `i`: 1 exactly for the stored positive values. -/
def preference (row : List (Nat × R)) (i : Nat) : R :=
  match row.lookup i with
  | none => 0
  | some c => if 0 < c then 1 else 0

/-- Loss of the vector `x` against the factors `Y`, over *all* rows of `Y`. -/
def rowLoss (Y : List (Fin f → R)) (row : List (Nat × R)) (reg : R) (x : Fin f → R) : R :=
  (∑ i : Fin Y.length,
      confidence row i * (preference row i - ∑ j, x j * Y[i] j) ^ 2) + reg * ∑ j, x j ^ 2

/-- The normal equations of `rowLoss`, over all rows of `Y`. -/
def NormalEquations (Y : List (Fin f → R)) (row : List (Nat × R)) (reg : R) (x : Fin f → R) : Prop :=
  ∀ a, (∑ i : Fin Y.length, confidence row i * (∑ j, x j * Y[i] j) * Y[i] a) + reg * x a =
    ∑ i : Fin Y.length, confidence row i * preference row i * Y[i] a

/-- `w = W_u y`, where `W_u` is the inverse of the matrix of the normal equations of a user with the
given row ("Collaborative Filtering for Implicit Feedback Datasets", section 5), stated as the linear
system it solves. -/
def IsWeighted (Y : List (Fin f → R)) (row : List (Nat × R)) (reg : R) (y w : Fin f → R) : Prop :=
  ∀ a, (∑ i : Fin Y.length, confidence row i * (∑ j, w j * Y[i] j) * Y[i] a) + reg * w a = y a

/-- The contributions `(score, item)` of the stored items that are not negative. -/
def contributions (Y : List (Fin f → R)) (row : List (Nat × R)) (w : Fin f → R) : List (R × Nat) :=
  (row.filter fun e => 0 ≤ e.2).map fun e => ((∑ j, w j * (Y[e.1]?.getD 0) j) * e.2, e.1)

/-- Half the negative gradient of `rowLoss` at `x`; it vanishes exactly at the solutions of the normal
equations. -/
def residual (Y : List (Fin f → R)) (row : List (Nat × R)) (reg : R) (x : Fin f → R) : Fin f → R :=
  fun a => (∑ i : Fin Y.length, confidence row i * preference row i * Y[i] a) -
    ((∑ i : Fin Y.length, confidence row i * (∑ j, x j * Y[i] j) * Y[i] a) + reg * x a)

/-- `x` is the one and only minimiser of `rowLoss`. -/
def IsOptimum (Y : List (Fin f → R)) (row : List (Nat × R)) (reg : R) (x : Fin f → R) : Prop :=
  ∀ z, z ≠ x → rowLoss Y row reg x < rowLoss Y row reg z

/-- Sum of the squares of all entries. -/
def sqNorm (X : List (Fin f → R)) : R := (X.map fun x => ∑ j, x j ^ 2).sum

/-- The objective: all cells of the matrix with rows `C`, plus the regularisation of both factor
matrices. -/
def objective (C : List (List (Nat × R))) (X Y : List (Fin f → R)) (reg : R) : R :=
  (∑ u : Fin X.length, ∑ i : Fin Y.length,
      confidence (C[u.1]?.getD []) i *
        (preference (C[u.1]?.getD []) i - ∑ j, X[u] j * Y[i] j) ^ 2) +
    reg * (sqNorm X + sqNorm Y)

/-- Sum of the confidences of all cells of a `users` x `items` matrix. -/
def totalConfidence (C : List (List (Nat × R))) (users items : Nat) : R :=
  ∑ u : Fin users, ∑ i : Fin items, confidence (C[u.1]?.getD []) i

end Implicit.Spec
