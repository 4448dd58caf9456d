import Mathlib.Algebra.BigOperators.Fin
import Mathlib.Algebra.Order.Field.Basic
/-!
# Factor vectors

A factor matrix is a list of rows; a row is a vector with `f` components.
-/

namespace Implicit

/-- A factor vector with `f` latent factors. -/
abbrev Vec (f : Nat) (R : Type) := Fin f → R

/-- Inner product (`numpy.dot` of two vectors, in exact arithmetic). -/
def dot {f : Nat} {R : Type} [AddCommMonoid R] [Mul R] (x y : Vec f R) : R := ∑ j, x j * y j

end Implicit
