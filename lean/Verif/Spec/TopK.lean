import Mathlib.Order.Defs.LinearOrder
/-!
# Specification of "the k best, sorted"

Independent of the heap-based code.  A candidate is a pair `(score, id)`.
-/

namespace Implicit.Spec

variable {R : Type} [LinearOrder R]

/-- `a` may be listed before `b`: larger score, ties broken by larger id. -/
def Before (a b : R × Nat) : Prop := b.1 < a.1 ∨ (a.1 = b.1 ∧ b.2 < a.2)

/-- `out` is a ranking of the `k` best candidates of `cands`. -/
structure IsTopK (k : Nat) (cands out : List (R × Nat)) : Prop where
  /-- as many as asked for, or all if there are fewer -/
  length : out.length = min k cands.length
  /-- the output is part of the candidates, and whatever was left out is no better
  than anything returned -/
  best : ∃ rest, cands.Perm (out ++ rest) ∧ ∀ p ∈ out, ∀ q ∈ rest, q.1 ≤ p.1
  /-- best first (never out of order) -/
  sorted : out.Pairwise (fun a b => a = b ∨ Before a b)

/-- `out` (pairs `(score, id)`) is a ranking of the `k` best positions of `scores`. -/
structure IsTopKOf (k : Nat) (scores : List R) (out : List (R × Nat)) : Prop where
  length : out.length = min k scores.length
  /-- every returned pair is a position together with its own score -/
  faithful : ∀ p ∈ out, scores[p.2]? = some p.1
  /-- no position is returned twice -/
  distinct : (out.map Prod.snd).Nodup
  /-- a position that is not returned scores no higher than any returned one -/
  best : ∀ p ∈ out, ∀ j s, scores[j]? = some s → j ∉ out.map Prod.snd → s ≤ p.1
  /-- strictly ordered: by decreasing score, ties by decreasing position -/
  sorted : out.Pairwise Before

end Implicit.Spec
