import Mathlib.Algebra.Order.Field.Basic
/-!
# Specification: sums of products in range
-/

namespace Implicit.Spec

/-- A sum of `c` products of absolute value `mass` in total stays in range up to `Ω`, whatever the roundings. -/
def SumInRange {R : Type} [Field R] [LinearOrder R] (u η Ω : R) (c : Nat) (mass : R) : Prop := (1 + u) ^ (c + 1) * (mass + 2 * c * η) ≤ Ω

end Implicit.Spec
