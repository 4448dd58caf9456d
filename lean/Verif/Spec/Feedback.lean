import Verif.Spec.ALS
/-!
# What feedback and regularisation should do to the scores of a recalculated user
-/

namespace Implicit.Spec

variable {R : Type} [LinearOrder R] [Field R] {f : Nat}

/-- Predicted score of the vector `x` for row `i` of `Y`. -/
def score (Y : List (Fin f → R)) (x : Fin f → R) (i : Nat) : R := ∑ j, x j * (Y[i]?.getD 0) j

/-- The two sparse rows store the same in every column other than `i`. -/
def SameExcept (i : Nat) (row row' : List (Nat × R)) : Prop :=
  ∀ j, j ≠ i → row'.lookup j = row.lookup j

/-- Going from `s` to `s'` moves towards `goal` without passing it. -/
def Towards (goal s s' : R) : Prop := (s ≤ s' ∧ s' ≤ goal) ∨ (goal ≤ s' ∧ s' ≤ s)

/-- Going from `s` to `s'` moves towards `goal` without reaching it. -/
def StrictlyTowards (goal s s' : R) : Prop := (s < s' ∧ s' < goal) ∨ (goal < s' ∧ s' < s)

/-- Sum of the confidences of the liked (stored and positive) items of a row. -/
def liked (row : List (Nat × R)) : R := (row.map fun e => if 0 < e.2 then e.2 else 0).sum

/-- Confidence-weighted sum of the scores of the liked items. -/
def likedScore (Y : List (Fin f → R)) (row : List (Nat × R)) (x : Fin f → R) : R :=
  (row.map fun e => if 0 < e.2 then e.2 * score Y x e.1 else 0).sum

/-- Loss of the data alone: `rowLoss` without the regularisation. -/
def dataLoss (Y : List (Fin f → R)) (row : List (Nat × R)) (x : Fin f → R) : R :=
  ∑ i : Fin Y.length, confidence row i * (preference row i - score Y x i) ^ 2

/-- Squared length of a vector. -/
def sqLength (x : Fin f → R) : R := ∑ j, x j ^ 2

end Implicit.Spec
