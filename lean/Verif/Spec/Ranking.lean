import Mathlib.Order.Defs.LinearOrder
import Mathlib.Data.List.Nodup
/-!
# Specification of a recommendation list

What a user expects from "the N best eligible entities": used for recommend, similar_items,
similar_users, item-item and approximate models.  A list entry is `(id, score)`.
-/

namespace Implicit.Spec

variable {R : Type} [LinearOrder R]

/-- `out` ranks the `N` best eligible entities; `score i` is the score of `i` (`none` when `i`
has no score). -/
structure IsRanking (N : Nat) (eligible : Nat → Prop) (score : Nat → Option R)
    (out : List (Nat × R)) : Prop where
  /-- only eligible entities, each with its own score -/
  mem : ∀ p ∈ out, eligible p.1 ∧ score p.1 = some p.2
  /-- no entity twice -/
  distinct : (out.map Prod.fst).Nodup
  /-- best first -/
  sorted : out.Pairwise (fun a b => b.2 ≤ a.2)
  /-- no more than asked for -/
  atMost : out.length ≤ N
  /-- fewer than asked for only if nothing eligible was left out -/
  complete : out.length < N → ∀ i, eligible i → i ∈ out.map Prod.fst
  /-- nothing eligible that was left out beats anything returned -/
  best : ∀ i s, eligible i → score i = some s → i ∉ out.map Prod.fst → ∀ p ∈ out, s ≤ p.2

end Implicit.Spec
