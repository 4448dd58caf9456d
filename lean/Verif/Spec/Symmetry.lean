import Mathlib.Logic.Equiv.Basic
import Mathlib.Data.List.Perm.Basic
import Mathlib.Algebra.BigOperators.Fin
/-!
# Specification: renaming and rotating

Users and items are only numbers: a matrix and factors with other numbers say the same.  Factors are coordinates: in another
orthonormal basis they say the same.
-/

namespace Implicit.Spec

/-- `X'` is `X` with number `u` changed to `σ u`. -/
def Renamed {α : Type} (σ : Equiv.Perm Nat) (X X' : List α) : Prop := ∀ u, X'[σ u]? = X[u]?

/-- The sparse matrix `C'` is `C` with users renamed by `σ` and items by `τ`; the stored entries of a row can come in any
order. -/
def RenamedMatrix {R : Type} (σ τ : Equiv.Perm Nat) (C C' : List (List (Nat × R))) : Prop :=
  ∀ u, Option.Rel (fun row row' => row'.Perm (row.map fun e => (τ e.1, e.2))) C[u]? C'[σ u]?

/-- Two computations agree: both fail, or both succeed with results in relation `r`. -/
inductive Agree {ε α β : Type} (r : α → β → Prop) : Except ε α → Except ε β → Prop
  | ok {a b} : r a b → Agree r (.ok a) (.ok b)
  | error {e e'} : Agree r (.error e) (.error e')

/-- The rows of `Q` are orthonormal. -/
def Orthonormal {f : Nat} {R : Type} [CommRing R] (Q : Fin f → Fin f → R) : Prop :=
  ∀ a b, ∑ c, Q a c * Q b c = if a = b then 1 else 0

/-- The coordinates of `x` in the other basis: `x Q`. -/
def rotate {f : Nat} {R : Type} [CommRing R] (Q : Fin f → Fin f → R) (x : Fin f → R) : Fin f → R :=
  fun a => ∑ c, x c * Q c a

/-- Rows `u` and `v` of the matrix store the same entries (in any order). -/
def SameHistory {R : Type} (C : List (List (Nat × R))) (u v : Nat) : Prop :=
  ∃ row row', C[u]? = some row ∧ C[v]? = some row' ∧ row'.Perm row

end Implicit.Spec
