import Verif.Spec.Knn
import Verif.Spec.Weights
/-!
# Specification of feedback to item-item models
-/

namespace Implicit.Spec

variable {R : Type}

/-- The new row rates item `j` by `v` more (or for the first time, with `v`) and is otherwise the same. -/
structure RatedMore [AddCommMonoid R] (row row' : List (Nat × R)) (j : Nat) (v : R) : Prop where
  /-- every cell except `j` is as before, `j` has grown by `v` -/
  cells : ∀ i, cell row' i = cell row i + if i = j then v else 0
  /-- what was rated is still rated -/
  kept : ∀ i, Stored row i → Stored row' i

/-- Every rating is 0 or 1. -/
def Binary (M : List (List (Nat × ℝ))) : Prop := ∀ row ∈ M, ∀ i, cell row i = 0 ∨ cell row i = 1

/-- No rating is negative. -/
def NonNegative [AddCommMonoid R] [LE R] (M : List (List (Nat × R))) : Prop := ∀ row ∈ M, ∀ i, 0 ≤ cell row i

end Implicit.Spec
