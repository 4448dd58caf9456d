import Verif.Spec.ApproxKnn
/-!
# Specification: error of NDCG in floating point
-/

namespace Implicit.Spec

variable {R : Type} [LinearOrder R] [Field R]

/-- Relative error of the sum of at most `K` discounts. -/
def idealError (u η : R) (K : Nat) : R := sumError u η K 1

/-- Error of the sum of the NDCGs of `N` users with `K` recommendations each. -/
def ndcgSumError (u η : R) (K N : Nat) : R :=
  sumError u η (N * K) (N / (1 - idealError u η K)) + N * (idealError u η K / (1 - idealError u η K))

/-- Error of the mean of the NDCGs. -/
def ndcgError (u η : R) (K N : Nat) : R := (1 + u) * (ndcgSumError u η K N / N) + u + η

end Implicit.Spec
