import Verif.Model.NativeCsr
/-!
# CSR matrices and shapes
-/

namespace Implicit.Spec

open Implicit

variable {R : Type}

/-- The arrays pass `csr_matrix.check_format`: `rows + 1` row pointers, beginning with 0, increasing,
ending with the number of stored entries; one value per index; every index is a column. -/
structure WellFormed (M : SparseArrays R) : Prop where
  pointers : M.indptr.length = M.rows + 1
  first : M.indptr[0]? = some 0
  monotone : ∀ u a b : Nat, M.indptr[u]? = some a → M.indptr[u + 1]? = some b → a ≤ b
  last : M.indptr[M.rows]? = some M.indices.length
  values : M.data.length = M.indices.length
  columns : ∀ i ∈ M.indices, i < M.cols

/-- The arrays are those of the matrix with rows `C`. -/
structure Represents (M : SparseArrays R) (C : SpRows R) : Prop where
  rows : C.length = M.rows
  pointers : M.indptr.length = M.rows + 1
  pointer : ∀ u : Nat, u ≤ M.rows → M.indptr[u]? = some (C.take u).flatten.length
  indices : M.indices = C.flatten.map Prod.fst
  data : M.data = C.flatten.map Prod.snd
  columns : ∀ row ∈ C, ∀ e ∈ row, e.1 < M.cols

/-- Every stored column of the rows is below `n`. -/
def ColumnsBelow (n : Nat) (C : SpRows R) : Prop := ∀ row ∈ C, ∀ e ∈ row, e.1 < n

variable {f : Nat}

/-- The model has `u` user rows and `i` item rows. -/
def Sized (u i : Nat) (st : MFState f R) : Prop := st.user.length = u ∧ st.item.length = i

variable [LinearOrder R] [Field R]

/-- The arguments of the operation belong to a model with `u` users and `i` items: training data of that
shape, known ids, one row per id, columns in range.  The python layer checks almost none of this. -/
inductive Belongs (env : Env f R) (u i : Nat) : Op f R → Prop
  | fit (invalidate : Bool) (C : SpRows R) (callback : Nat → List (Query f R)) (torn : Factors f R)
      (epochs : Nat) : C.length = u → ColumnsBelow i C → torn.user.length = u → torn.item.length = i →
      Belongs env u i (.fit invalidate (alsTrain env i C) callback torn epochs)
  | partialFitUsers (ids : List Nat) (rows : SpRows R) : (∀ x ∈ ids, x < u) → ColumnsBelow i rows →
      Belongs env u i (.partialFitUsers ids rows)
  | partialFitItems (ids : List Nat) (rows : SpRows R) : (∀ x ∈ ids, x < i) → ColumnsBelow u rows →
      Belongs env u i (.partialFitItems ids rows)
  | recalculateUser (ids : Ids) (rows : SpRows R) : ColumnsBelow i rows →
      Belongs env u i (.query (.recalculateUser ids rows))
  | recalculateItem (ids : Ids) (rows : SpRows R) : ids.count ≤ rows.length → ColumnsBelow u rows →
      Belongs env u i (.query (.recalculateItem ids rows))
  | query (q : Query f R) : (∀ ids rows, q ≠ .recalculateUser ids rows) →
      (∀ ids rows, q ≠ .recalculateItem ids rows) → Belongs env u i (.query q)

end Implicit.Spec
