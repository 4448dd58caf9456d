import Verif.Spec.ALS
/-!
# Distance between factor matrices, and the stationary points of the ALS objective
-/

namespace Implicit.Spec

variable {R : Type} [LinearOrder R] [Field R] {f : Nat}

/-- Squared distance of two factor matrices with equally many rows. -/
def sqDist (X X' : List (Fin f → R)) : R :=
  ∑ u : Fin X.length, ∑ j, (X[u] j - (X'[u.1]?.getD 0) j) ^ 2

/-- Half the negative gradient of the objective with respect to the factors of user `u`. -/
def userGradient (C : List (List (Nat × R))) (X Y : List (Fin f → R)) (reg : R) (u : Fin X.length) :
    Fin f → R :=
  fun a => (∑ i : Fin Y.length, confidence (C[u.1]?.getD []) i *
    (preference (C[u.1]?.getD []) i - ∑ j, X[u] j * Y[i] j) * Y[i] a) - reg * X[u] a

/-- Half the negative gradient of the objective with respect to the factors of item `i`. -/
def itemGradient (C : List (List (Nat × R))) (X Y : List (Fin f → R)) (reg : R) (i : Fin Y.length) :
    Fin f → R :=
  fun a => (∑ u : Fin X.length, confidence (C[u.1]?.getD []) i *
    (preference (C[u.1]?.getD []) i - ∑ j, X[u] j * Y[i] j) * X[u] a) - reg * Y[i] a

/-- The gradient of the objective vanishes. -/
def Stationary (C : List (List (Nat × R))) (X Y : List (Fin f → R)) (reg : R) : Prop :=
  (∀ u, userGradient C X Y reg u = 0) ∧ ∀ i, itemGradient C X Y reg i = 0

end Implicit.Spec
