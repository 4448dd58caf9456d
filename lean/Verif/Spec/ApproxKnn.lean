import Mathlib.Algebra.Order.Group.Abs
import Mathlib.Data.List.Nodup
import Verif.Spec.Knn
/-!
# Specification: item-item similarities and scores up to errors
-/

namespace Implicit.Spec

variable {R : Type} [LinearOrder R]

/-- `out` lists at most `K` eligible entities with scores that are off by at most `ε`, and in an order, and a choice, that the true
scores contradict by no more than the two errors involved.  It is shorter than `K` only if it has all that are eligible. -/
structure ApproxRanking [AddCommGroup R] (K : Nat) (eligible : Nat → Prop) (score ε : Nat → R) (out : List (Nat × R)) : Prop where
  mem : ∀ p ∈ out, eligible p.1 ∧ |p.2 - score p.1| ≤ ε p.1
  distinct : (out.map Prod.fst).Nodup
  sorted : out.Pairwise fun a b => score b.1 ≤ score a.1 + (ε a.1 + ε b.1)
  atMost : out.length ≤ K
  complete : out.length < K → ∀ i, eligible i → i ∈ out.map Prod.fst
  best : ∀ j, eligible j → j ∉ out.map Prod.fst → ∀ p ∈ out, score j ≤ score p.1 + (ε p.1 + ε j)

/-- Number of users with an entry for `i` and one for `j`. -/
def coRaters (M : List (List (Nat × R))) (i j : Nat) : Nat :=
  M.countP fun row => row.any (fun e => e.1 == i) && row.any (fun e => e.1 == j)

/-- The sum of the absolute values of the products of which `similarity` is the sum. -/
def similarityMass [Ring R] (M : List (List (Nat × R))) (i j : Nat) : R :=
  (M.map fun row => |cell row i * cell row j|).sum

/-- Number of items of the row with `j` among their neighbours. -/
def scoreTerms (sim : List (List (Nat × R))) (row : List (Nat × R)) (j : Nat) : Nat :=
  row.countP fun e => (sim.getD e.1 []).any fun x => x.1 == j

/-- The sum of the absolute values of the products of which `itemScore` is the sum. -/
def itemMass [Ring R] (sim : List (List (Nat × R))) (row : List (Nat × R)) (j : Nat) : R :=
  (row.map fun e => |e.2 * cell (sim.getD e.1 []) j|).sum

/-- Error of a sum of `m` products in floating point: `A` is the sum of their absolute values. -/
def sumError [Field R] (u η : R) (m : Nat) (A : R) : R := ((1 + u) ^ (m + 1) - 1) * A + 2 * m * (1 + u) ^ (m + 1) * η

end Implicit.Spec
