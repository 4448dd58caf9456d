import Mathlib.Algebra.BigOperators.Fin
import Mathlib.Algebra.Order.Field.Basic
/-!
# Specification: how large the intermediate results of a score can be
-/

namespace Implicit.Spec

/-- No partial sum of the products `x i * y i`, in any order, is larger: `u` and `η` are the relative and absolute errors of a rounding. -/
def scoreRange {R : Type} [Field R] [LinearOrder R] {f : Nat} (u η : R) (x y : Fin f → R) : R :=
  (1 + u) ^ f * (∑ i, |x i * y i|) + 2 * f * (1 + u) ^ f * η

end Implicit.Spec
