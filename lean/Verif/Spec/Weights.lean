import Verif.Spec.Knn
import Verif.Spec.Cosine
/-!
# Specification of weighted ratings
-/

namespace Implicit.Spec

/-- The ratings of item `i` as a dense vector over the users. -/
def column (M : List (List (Nat × ℝ))) (i : Nat) : Fin M.length → ℝ := fun u => cell M[u] i

/-- Sum of the squares of the stored values of row `r` of a matrix given by its triples. -/
noncomputable def rowSquares (es : List (Nat × Nat × ℝ)) (r : Nat) : ℝ :=
  ((es.filter fun e => e.1 = r).map fun e => e.2.2 ^ 2).sum

/-- Number of stored entries in column `c`. -/
def columnCount (es : List (Nat × Nat × ℝ)) (c : Nat) : Nat :=
  (es.filter fun e => e.2.1 = c).length

end Implicit.Spec
