import Verif.Spec.Ranking
/-!
# Specification of a ranking followed by excluded candidates

What a query on the device promises: the `k` best eligible candidates, and only when there are too few of
them, candidates that are not eligible, all with the score `low`.
-/

namespace Implicit.Spec

variable {R : Type} [LinearOrder R]

structure IsPaddedRanking (k : Nat) (candidate eligible : Nat → Prop) (low : R) (score : Nat → Option R)
    (out : List (Nat × R)) : Prop where
  split : ∃ good rest, out = good ++ rest ∧ IsRanking k eligible score good ∧
    (∀ p ∈ rest, candidate p.1 ∧ ¬ eligible p.1 ∧ p.2 = low) ∧
    (rest ≠ [] → ∀ i, eligible i → i ∈ good.map Prod.fst)
  length : out.length = k
  distinct : (out.map Prod.fst).Nodup

end Implicit.Spec
