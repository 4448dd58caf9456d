import Verif.Model.BPR
import Mathlib.Data.Real.Basic
import Mathlib.Algebra.BigOperators.Intervals
/-!
# Size of the factors of a ranking model
-/

namespace Implicit.Spec

/-- The sum of the squares of all factors, the item biases (last column) counted twice; the last column of the users,
which is not trained, is left out. -/
def trainingEnergy (users items factors : Nat) (m : BprCell → ℝ) : ℝ :=
  (∑ u ∈ Finset.range users, ∑ j ∈ Finset.range factors, m (.user u j) ^ 2) +
    ∑ i ∈ Finset.range items, (∑ j ∈ Finset.range factors, m (.item i j) ^ 2 + 2 * m (.item i factors) ^ 2)

/-- All trained factors are at most `b` in absolute value. -/
def FactorsWithin (users items factors : Nat) (b : ℝ) (m : BprCell → ℝ) : Prop :=
  (∀ u < users, ∀ j < factors, |m (.user u j)| ≤ b) ∧ ∀ i < items, ∀ j ≤ factors, |m (.item i j)| ≤ b

/-- All factors are finite, with the values `x`. -/
def HasValues (users items factors : Nat) (m : BprCell → Option ℝ) (x : BprCell → ℝ) : Prop :=
  (∀ u < users, ∀ j ≤ factors, m (.user u j) = some (x (.user u j))) ∧
    ∀ i < items, ∀ j ≤ factors, m (.item i j) = some (x (.item i j))

end Implicit.Spec
