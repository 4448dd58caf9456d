import Mathlib.Algebra.Field.Defs
import Mathlib.Algebra.BigOperators.Group.Finset.Basic
/-!
# Specification of sparse products and item-item scores
-/

namespace Implicit.Spec

variable {R : Type}

/-- Sum of the values that a list of (index, value) pairs gives to index `j`. -/
def sumAt [AddCommMonoid R] : List (Nat × R) → Nat → R
  | [], _ => 0
  | (i, v) :: es, j => (if i = j then v else 0) + sumAt es j

/-- Is something stored in column `i` of a sparse row? -/
def Stored (row : List (Nat × R)) (i : Nat) : Prop := ∃ v, (i, v) ∈ row

/-- Cell `i` of a sparse row as a number (0 if nothing is stored, duplicates are added). -/
def cell [AddCommMonoid R] (row : List (Nat × R)) (i : Nat) : R := sumAt row i

/-- Items `i` and `j` have a user in common. -/
def CoRated (M : List (List (Nat × R))) (i j : Nat) : Prop :=
  ∃ row ∈ M, Stored row i ∧ Stored row j

/-- Entry `(i, j)` of `Mᵀ M`. -/
def similarity [Semiring R] (M : List (List (Nat × R))) (i j : Nat) : R :=
  (M.map fun row => cell row i * cell row j).sum

/-- Score of item `j` for a user with the sparse row `row`, given a similarity matrix: the sum over
the rated items of rating times similarity. -/
def itemScore [Semiring R] (sim : List (List (Nat × R))) (row : List (Nat × R)) (j : Nat) : R :=
  (row.map fun e => e.2 * cell (sim.getD e.1 []) j).sum

/-- Item `j` is a stored neighbour of an item of the row. -/
def Reachable (sim : List (List (Nat × R))) (row : List (Nat × R)) (j : Nat) : Prop :=
  ∃ e ∈ row, Stored (sim.getD e.1 []) j

end Implicit.Spec
