import Mathlib.Algebra.Order.Group.Abs
import Mathlib.Data.List.Nodup
/-!
# Specification: a ranking that is right up to errors in the scores
-/

namespace Implicit.Spec

variable {R : Type} [AddCommGroup R] [LinearOrder R] {n : Nat}

/-- `out` lists `k` eligible entities with scores that are off by at most `ε`, and in an order, and a choice, that the true
scores contradict by no more than the two errors involved. -/
structure ApproxTop (k : Nat) (eligible : Fin n → Prop) (score ε : Fin n → R) (out : List (R × Nat)) : Prop where
  length : out.length = k
  distinct : (out.map Prod.snd).Nodup
  mem : ∀ p ∈ out, ∃ i : Fin n, p.2 = i.val ∧ eligible i ∧ |p.1 - score i| ≤ ε i
  sorted : out.Pairwise fun a b => ∀ i j : Fin n, a.2 = i.val → b.2 = j.val → score j ≤ score i + (ε i + ε j)
  best : ∀ j : Fin n, eligible j → (j : Nat) ∉ out.map Prod.snd → ∀ p ∈ out, ∀ i : Fin n, p.2 = i.val → score j ≤ score i + (ε i + ε j)

end Implicit.Spec
