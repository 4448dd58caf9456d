import Mathlib.Analysis.Real.Sqrt
import Mathlib.Data.List.Nodup
/-!
# Specification: rankings and index answers that are right up to an error

Entries are `(id, score)`.
-/

namespace Implicit.Spec

/-- `out` lists the `N` best eligible entities, but scores may be off by `ε`: so the order, and the choice, may contradict the true scores
by twice as much. -/
structure NearRanking (N : Nat) (eligible : Nat → Prop) (score : Nat → Option ℝ) (ε : ℝ) (out : List (Nat × ℝ)) : Prop where
  mem : ∀ p ∈ out, eligible p.1 ∧ ∃ s, score p.1 = some s ∧ |p.2 - s| ≤ ε
  distinct : (out.map Prod.fst).Nodup
  sorted : out.Pairwise fun a b => ∀ s t, score a.1 = some s → score b.1 = some t → t ≤ s + 2 * ε
  atMost : out.length ≤ N
  complete : out.length < N → ∀ i, eligible i → i ∈ out.map Prod.fst
  best : ∀ i s, eligible i → score i = some s → i ∉ out.map Prod.fst → ∀ p ∈ out, ∀ t, score p.1 = some t → s ≤ t + 2 * ε

/-- What an index over the vectors `rows` answers when asked about `q`: as many entries as asked for; `similarity` is what the answers stand for
and `convert` what is made of an answered distance.  No error (`δ = 0`) is an exact search. -/
def NearIndex {V : Type} (similarity : V → V → ℝ) (convert : ℝ → ℝ) (δ : ℝ) (rows : List V) (q : V) (search : Nat → List (Int × ℝ)) : Prop :=
  ∀ k, ∃ out : List (Nat × ℝ), search k = out.map (fun p => ((p.1 : Int), p.2)) ∧
    NearRanking k (fun i => i < rows.length) (fun i => (rows[i]?).map (similarity q)) δ (out.map fun p => (p.1, convert p.2))

/-- How far the inner products that an approximate model reports may be off, for `f` factors: `u` is the precision of the factors, `v` that of
the scores, `δ` the error of the similarities in the index, `M` the length of the longest item and `Q` that of the query. -/
def annError (u v δ : ℝ) (f : Nat) (M Q : ℝ) : ℝ :=
  (((1 + v) ^ (f + 7) - 1) * (3 + δ) + δ + 3 * ((1 + u) ^ (f + 6) - 1)) * (M * Q)

end Implicit.Spec
