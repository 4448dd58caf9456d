import Mathlib.Data.Set.Basic
/-!
# Specification of a two dimensional numpy array in memory
-/

namespace Implicit.Spec

/-- A two dimensional array: numbers of rows and columns, strides (in elements) and the number of elements that can be
addressed from the first one on. -/
structure ArrayLayout where
  rows : Nat
  cols : Nat
  rowStride : Nat
  colStride : Nat
  size : Nat

/-- Where element `(u, j)` is. -/
def ArrayLayout.at (L : ArrayLayout) (u j : Nat) : Nat := u * L.rowStride + j * L.colStride

/-- All elements are in the memory of the array, each in a place of its own. -/
structure ArrayLayout.Proper (L : ArrayLayout) : Prop where
  inside : ∀ u j, u < L.rows → j < L.cols → L.at u j < L.size
  separate : ∀ u j u' j', u < L.rows → j < L.cols → u' < L.rows → j' < L.cols → L.at u j = L.at u' j' → u = u' ∧ j = j'

/-- Row by row, without gaps (numpy's default), and column by column (`order="F"`). -/
def cOrder (rows cols : Nat) : ArrayLayout := ⟨rows, cols, cols, 1, rows * cols⟩
def fOrder (rows cols : Nat) : ArrayLayout := ⟨rows, cols, 1, rows, rows * cols⟩

end Implicit.Spec
