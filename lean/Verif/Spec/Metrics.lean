import Mathlib.Algebra.BigOperators.Group.Finset.Basic
import Mathlib.Algebra.Order.Field.Basic
import Mathlib.Order.Interval.Finset.Nat
import Mathlib.Data.Finset.Card
/-!
# Textbook definitions of the ranking metrics

`ranked` is the list of the K recommended ids, `rel` the set of relevant items, `all` the set of all
items.
-/

namespace Implicit.Spec

variable {R : Type} [Field R]

/-- Number of relevant items among the recommended. -/
def hits (rel : Finset Int) (ranked : List Int) : Nat := ranked.countP (· ∈ rel)

/-- Precision of the first `i` places. -/
def precisionAt (rel : Finset Int) (ranked : List Int) (i : Nat) : R :=
  (hits rel (ranked.take i) : R) / (i : R)

/-- Sum over the places that hold a relevant item. -/
def sumHits (rel : Finset Int) (ranked : List Int) (value : Nat → R) : R :=
  ∑ i ∈ Finset.range ranked.length, if (ranked.getD i 0) ∈ rel then value i else 0

/-- Greatest possible number of hits in `K` places. -/
def bestHits (rel : Finset Int) (K : Nat) : Nat := min K rel.card

/-- Average precision at `K`. -/
def averagePrecision (rel : Finset Int) (ranked : List Int) (K : Nat) : R :=
  sumHits rel ranked (fun i => precisionAt rel ranked (i + 1)) / (bestHits rel K : R)

/-- Discounted cumulative gain with discounts `cg`. -/
def dcg (cg : Nat → R) (rel : Finset Int) (ranked : List Int) : R := sumHits rel ranked cg

/-- DCG of a list that has as many relevant items as possible, all of them first. -/
def idealDcg (cg : Nat → R) (rel : Finset Int) (K : Nat) : R :=
  ∑ i ∈ Finset.range (bestHits rel K), cg i

/-- Normalised DCG. -/
def ndcg (cg : Nat → R) (rel : Finset Int) (ranked : List Int) (K : Nat) : R :=
  dcg cg rel ranked / idealDcg cg rel K

/-- How well the relevant `p` and the irrelevant `n` are ordered; items that were not recommended share
the place after the last, and a tie counts one half. -/
def pairCredit (ranked : List Int) (p n : Int) : R :=
  if ranked.idxOf p < ranked.idxOf n then 1
  else if ranked.idxOf n < ranked.idxOf p then 0 else 1 / 2

/-- Fraction of (relevant, irrelevant) pairs that are ordered correctly. -/
def auc (rel all : Finset Int) (ranked : List Int) : R :=
  (∑ p ∈ rel, ∑ n ∈ all \ rel, pairCredit ranked p n) / ((rel.card : R) * ((all \ rel).card : R))

end Implicit.Spec

namespace Implicit.Spec

/-- The relevant items of a user: the stored entries of the user's row of the test matrix. -/
def relevant {R : Type} (row : List (Nat × R)) : Finset Int := (row.map fun e => (e.1 : Int)).toFinset

/-- All items, as ids. -/
def allItems (items : Nat) : Finset Int := (List.range items).map (fun i : Nat => (i : Int)) |>.toFinset

/-- The users that are evaluated: those with an entry in the test matrix. -/
def evaluated {R : Type} (test : List (List (Nat × R))) : Finset Nat :=
  (Finset.range test.length).filter fun u => test.getD u [] ≠ []

/-- A sensible recommendation list of `K` ids: different, existing items. -/
structure ValidRanking (items K : Nat) (ranked : List Int) : Prop where
  length : ranked.length = K
  distinct : ranked.Nodup
  existing : ∀ x ∈ ranked, x ∈ allItems items

/-- A test row whose metrics are defined: existing items, not all of them. -/
structure ValidTest {R : Type} (items : Nat) (row : List (Nat × R)) : Prop where
  existing : ∀ e ∈ row, e.1 < items
  proper : (relevant row).card < items

/-- All relevant items first, as far as there are places. -/
def Perfect (rel : Finset Int) (K : Nat) (ranked : List Int) : Prop :=
  ∀ i, i < bestHits rel K → ranked.getD i 0 ∈ rel

end Implicit.Spec
