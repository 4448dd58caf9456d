import Mathlib.Data.List.OfFn
import Mathlib.Algebra.Order.Ring.Rat
import Mathlib.Algebra.Order.Group.Unbundled.Abs
/-!
# Specification of a matrix stored row by row and of the finite single precision floats
-/

namespace Implicit.Spec

/-- The elements of the rows one after another. -/
def rowMajor {R : Type} {f : Nat} (rows : List (Fin f → R)) : List R := (rows.map List.ofFn).flatten

/-- `x` is a finite single precision float: an integer of at most 24 bits times a power of two between `2^-149` and
`2^104`. -/
def IsFloat (x : Rat) : Prop :=
  ∃ (m e : Int), |m| < 2 ^ 24 ∧ -149 ≤ e ∧ e ≤ 104 ∧ x = m * (2 : Rat) ^ e

end Implicit.Spec
