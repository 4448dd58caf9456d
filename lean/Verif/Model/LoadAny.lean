import Verif.Model.ALSState
import Verif.Model.NativeCsr
import Verif.Model.NearestNeighbours
import Verif.Model.Persist

/-!
# Files and arrays of any origin

`Verif.Model.Persist` loads the files that `save` writes.  Here `load` gets an arbitrary `.npz` archive: any names, any values, arrays
of any shape and memory order; and the native code gets the arrays that came out of it.

numpy and scipy are library behaviour and part of the trusted base:

* `np.load(…, allow_pickle=False)` raises `ValueError` when a pickled member is read;
* `csr_matrix((data, indices, indptr), shape)` runs `check_format(full_check=False)`, which looks at the lengths of the arrays and
  the ends of `indptr` only;
* the sum of an array of shape `(g, g)` and one of shape `(n, n)` is formed if `g = n`, `g = 1` or `n = 1`, and raises `ValueError` otherwise.

Simplified: the members of an archive have different names; the factor arrays have the data type the model expects; arrays are
contiguous, in C or in Fortran order.
-/

namespace Implicit

variable {R : Type}

/-! ## `RecommenderBase.load` -/

/-- What `load` stores in an attribute: the value of the member (`v.item()` for a 0-dimensional one), or a data type. -/
inductive FileVal (R : Type) where
  | value (v : NpVal R)
  | dtype (name : String)
deriving DecidableEq, Repr

/-- `implicit/recommender_base.py:195-199`: the value for one member.  `dtypeOf` is `np.dtype(str(v))`; `TypeError` if it is none. -/
def memberValue (dtypeOf : NpVal R → Option String) (name : String) : NpVal R → Except Err (FileVal R)
  | .pickled => .error .valueError
  | v =>
    if name = "dtype" then
      match dtypeOf v with
      | some d => .ok (.dtype d)
      | none => .error .typeError
    else .ok (.value v)

/-- The attributes that `load` has set on the new object; the others are those of `cls()`. -/
abbrev Loaded (R : Type) := String → Option (FileVal R)

/-- `implicit/recommender_base.py:195-200`, one round.  `settable`: is there no read-only property of that name (`solver`, `YtY`,
`item_norms`, …)? -/
def loadMember (settable : String → Bool) (dtypeOf : NpVal R → Option String) (o : Loaded R) (kv : String × NpVal R) :
    Except Err (Loaded R) := do
  let v ← memberValue dtypeOf kv.1 kv.2
  if settable kv.1 then .ok (fun k => if k = kv.1 then some v else o k) else .error .attributeError

/-- `RecommenderBase.load` of an archive (`implicit/recommender_base.py:193-201`). -/
def loadMembers (settable : String → Bool) (dtypeOf : NpVal R → Option String) (members : List (String × NpVal R)) :
    Except Err (Loaded R) :=
  members.foldlM (loadMember settable dtypeOf) fun _ => none

/-- Looking up a method of the loaded object and calling it: an attribute of the object comes before the method of the class, and
nothing that `load` stores can be called. -/
def callMethod (o : Loaded R) (name : String) : Except Err Unit :=
  match o name with
  | some _ => .error .typeError
  | none => .ok ()

section

variable [LinearOrder R] [Field R] {f : Nat}

/-! ## Factor arrays in memory -/

/-- A 2-dimensional array of numbers: the elements in memory order, rows after rows (C) or columns after columns (Fortran). -/
structure Arr2 (R : Type) where
  rows : Nat
  cols : Nat
  fortran : Bool
  data : List R
deriving DecidableEq, Repr

/-- Offset of element `(i, j)`; Cython computes it from the strides, unchecked (`boundscheck(False)`). -/
def Arr2.addr (a : Arr2 R) (i j : Nat) : Nat := if a.fortran then i + j * a.rows else i * a.cols + j

/-- Reading memory; outside of the array the behaviour is undefined. -/
def Arr2.read (a : Arr2 R) (k : Nat) : Except Err R :=
  match a.data[k]? with
  | some x => .ok x
  | none => .error .undefinedBehaviour

/-- A vector from the list of its components. -/
def ofComponents (n : Nat) (l : List R) : Vec n R := fun j => l.getD j 0

/-- What BLAS reads when it is given `&a[i, 0]` and the increment 1: the next `n` numbers in memory (`implicit/cpu/_als.pyx:116,124`). -/
def Arr2.blasRow (a : Arr2 R) (n i : Nat) : Except Err (Vec n R) := do
  pure (ofComponents n (← (List.range n).mapM fun j => a.read (a.addr i 0 + j)))

/-- `a[i, j]` for `j` below `n` (`implicit/cpu/_als.pyx:123`). -/
def Arr2.indexRow (a : Arr2 R) (n i : Nat) : Except Err (Vec n R) := do
  pure (ofComponents n (← (List.range n).mapM fun j => a.read (a.addr i j)))

/-- numpy's view of the array, element by element. -/
def Arr2.entry (a : Arr2 R) (i j : Nat) : R := a.data.getD (a.addr i j) 0

/-- The rows as numpy sees them. -/
def Arr2.table (a : Arr2 R) (n : Nat) : List (Vec n R) := (List.range a.rows).map fun i j => a.entry i j

/-- `Y.T.dot(Y)` (`implicit/cpu/als.py:428`): numpy heeds the memory order. -/
def Arr2.gram (a : Arr2 R) : Nat → Nat → R := fun p q => ((List.range a.rows).map fun i => a.entry i p * a.entry i q).sum

/-- `YtY + regularization * np.eye(factors)` for `YtY` of shape `(g, g)`, and the `factors * factors` numbers from its beginning that
`memcpy` copies (`implicit/cpu/_als.pyx:85,106`). -/
def addEye (g n : Nat) (G : Nat → Nat → R) (reg : R) : Except Err (Mat n R) :=
  if g = n then .ok fun a b => G a b + reg * (if a = b then 1 else 0)
  else if g = 1 then .ok fun a b => G 0 0 + reg * (if a = b then 1 else 0)
  else if n = 1 then .ok fun _ _ => G 0 0 + reg * 1
  else .error .valueError

/-- The entries of a row with what BLAS and what Cython read for them. -/
def memEntries (Y : Arr2 R) (n : Nat) : List (Nat × R) → Except Err (List (Vec n R × Vec n R × R))
  | [] => .ok []
  | (i, c) :: row => do
    let w ← Y.blasRow n i
    let y ← Y.indexRow n i
    pure ((w, y, c) :: (← memEntries Y n row))

/-- One round of the accumulation loop (`implicit/cpu/_als.pyx:109-124`): `axpy` reads the factor with increment 1, the coefficient
`(confidence - 1) * Y[i, j]` through the strides. -/
def memAccumulate {n : Nat} (s : Mat n R × Vec n R) (e : Vec n R × Vec n R × R) : Mat n R × Vec n R :=
  if 0 < e.2.2 then
    (fun a b => s.1 a b + (e.2.2 - 1) * e.2.1 a * e.1 b, fun a => s.2 a + e.2.2 * e.1 a)
  else
    (fun a b => s.1 a b + (-e.2.2 - 1) * e.2.1 a * e.1 b, s.2)

/-- One row of `_least_squares` (`implicit/cpu/_als.pyx:96-138`). -/
def memLeastSquaresRow {n : Nat} (S : Solver n R) (A0 : Mat n R) (Y : Arr2 R) (row : List (Nat × R)) : Except Err (Vec n R) :=
  if row.isEmpty then .ok fun _ => 0
  else do
    let es ← memEntries Y n row
    let Ab := es.foldl memAccumulate (A0, fun _ => 0)
    match S.solve Ab.1 Ab.2 with
    | some x => pure x
    | none => throw .valueError

/-- `recalculate_user` of a model whose attributes hold `factors = n` and the array `Y` (`implicit/cpu/als.py:203-240`), and, with the
user factors in `Y`, `recalculate_item` for as many ids as rows (242-273). -/
def memRecalculate {n : Nat} (S : Solver n R) (alpha reg : R) (Y : Arr2 R) (userItems : SpRows R) : Except Err (List (Vec n R)) := do
  let A0 ← addEye Y.cols n Y.gram reg
  (applyAlpha alpha userItems).mapM (memLeastSquaresRow S A0 Y)

/-! ## Similarity matrices -/

/-- The members `shape`, `indptr`, `indices` and `data` of an item-item archive. -/
structure RawCsr (R : Type) where
  rows : Nat
  cols : Nat
  indptr : List Int
  indices : List Int
  data : List R
deriving DecidableEq, Repr

/-- `csr_matrix((data, indices, indptr), shape=shape)` (`implicit/nearest_neighbours.py:178-180`): scipy's `check_format(full_check=False)`
and `prune`, which drops what lies behind `indptr[-1]`. -/
def csrCheck (m : RawCsr R) : Except Err (RawCsr R) :=
  if m.indptr.length ≠ m.rows + 1 then .error .valueError
  else if m.indptr.head? ≠ some 0 then .error .valueError
  else if m.indices.length ≠ m.data.length then .error .valueError
  else
    let nnz := m.indptr.getLast?.getD 0
    if (m.indices.length : Int) < nnz then .error .valueError
    else
      let kept := (if 0 ≤ nnz then nnz else nnz + m.indices.length).toNat
      .ok { m with indices := m.indices.take kept, data := m.data.take kept }

/-- Position of index `k` in a Cython buffer of length `n`: negative ones count from the end, nothing is checked. -/
def wrapIndex (n : Nat) (k : Int) : Int := if k < 0 then k + n else k

/-- `self.similarity_indices[index2]`, `self.similarity_data[index2]` (`implicit/_nearest_neighbours.pyx:78-79`). -/
def rawEntry (m : RawCsr R) (k : Int) : Except Err (Int × R) :=
  match wrapIndex m.indices.length k with
  | .negSucc _ => .error .undefinedBehaviour
  | .ofNat p =>
    match m.indices[p]?, m.data[p]? with
    | some i, some v => .ok (i, v)
    | _, _ => .error .undefinedBehaviour

/-- `for index2 in range(indptr[i], indptr[i+1])` (`implicit/_nearest_neighbours.pyx:77`). -/
def rawRow (m : RawCsr R) (i : Nat) : Except Err (List (Int × R)) :=
  match m.indptr[i]?, m.indptr[i + 1]? with
  | some a, some b => (List.range (b - a).toNat).mapM fun (t : Nat) => rawEntry m (a + (t : Int))
  | _, _ => .error .undefinedBehaviour

/-- `add` with an index of type `int` (`implicit/nearest_neighbours.h:47-55`). -/
def Accum.addInt (a : Accum R) : Int → R → Except Err (Accum R)
  | .ofNat i, v => a.add i v
  | .negSucc _, _ => .error .undefinedBehaviour

/-- The loop of `implicit/_nearest_neighbours.pyx:73-79`: one liked item after the other. -/
def rawAdds (m : RawCsr R) : Accum R → List (Nat × R) → Except Err (Accum R)
  | a, [] => .ok a
  | a, e :: row => do
    let es ← rawRow m e.1
    let a ← es.foldlM (fun a x => a.addInt x.1 (x.2 * e.2)) a
    rawAdds m a row

/-- `NearestNeighboursScorer.recommend` on the arrays (`implicit/_nearest_neighbours.pyx:60-105`). -/
def rawScorer (H : HeapImpl (R × Nat) pairLt) (m : RawCsr R) (a : Accum R) (row : List (Nat × R)) (K : Nat) (removeOwnLikes : Bool) :
    Except Err (List (Nat × R) × Accum R) := do
  let a ← rawAdds m a row
  let a ← if removeOwnLikes then a.clearAll (row.map Prod.fst) else pure a
  let r ← a.foreach
  let h ← offerAll H K [] (r.1.map Prod.swap)
  pure ((H.sort h).map Prod.swap, r.2)

/-- `ItemItemRecommender.load` of an archive with these members and then `recommend` for one user
(`implicit/nearest_neighbours.py:169-184,43-105`), without `filter_items` and `items`. -/
def loadThenRecommend (H : HeapImpl (R × Nat) pairLt) (m : RawCsr R) (row : List (Nat × R)) (N : Nat) (filterLiked : Bool) :
    Except Err (List (Nat × R)) := do
  let m ← csrCheck m
  let r ← rawScorer H m (Accum.new m.rows) row N filterLiked
  pure r.1

end

end Implicit
