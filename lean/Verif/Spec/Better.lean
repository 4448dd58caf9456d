import Verif.Spec.Metrics
/-!
# When one recommendation list is better than another
-/

namespace Implicit.Spec

/-- Every beginning of `better` has at least as many relevant items as the same beginning of `worse`. -/
def AtLeastAsGood (rel : Finset Int) (K : Nat) (better worse : List Int) : Prop :=
  ∀ i, i ≤ K → hits rel (worse.take i) ≤ hits rel (better.take i)

/-- And some beginning has more. -/
def Better (rel : Finset Int) (K : Nat) (better worse : List Int) : Prop :=
  AtLeastAsGood rel K better worse ∧ ∃ i, i ≤ K ∧ hits rel (worse.take i) < hits rel (better.take i)

end Implicit.Spec
