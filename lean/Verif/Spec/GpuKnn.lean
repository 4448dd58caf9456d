import Verif.Spec.TopK
import Mathlib.Algebra.Field.Basic
import Mathlib.Algebra.BigOperators.Fin

/-!
# Specification of a GPU top-k query

`IsSelection k scores out`: `out` holds the `k` best positions, ties in any order.
`queryScore`: the score of an item for a query, `low` if the item is filtered.
-/

namespace Implicit.Spec

variable {R : Type}

structure IsSelection [LinearOrder R] (k : Nat) (scores : List R) (out : List (R × Nat)) : Prop where
  length : out.length = k
  faithful : ∀ p ∈ out, scores[p.2]? = some p.1
  distinct : (out.map Prod.snd).Nodup
  best : ∀ p ∈ out, ∀ j s, scores[j]? = some s → j ∉ out.map Prod.snd → s ≤ p.1
  sorted : out.Pairwise fun a b => b.1 ≤ a.1

/-- The score of item `c` for query row `r`. -/
def queryScore [Field R] {f : Nat} (low : R) (items query : List (Fin f → R)) (norms : Option (List R))
    (itemFilter : Option (List Nat)) (queryFilter : Option (List (Nat × Nat))) (r c : Nat) : R :=
  let score := ∑ j, items.getD c (fun _ => 0) j * query.getD r (fun _ => 0) j
  if (∃ l ∈ itemFilter, c ∈ l) ∨ (∃ l ∈ queryFilter, (r, c) ∈ l) then low
  else match norms with
    | none => score
    | some n => score / n.getD c 0

end Implicit.Spec
