import Verif.Model.Weights
import Verif.Model.Evaluation
import Verif.Model.Dataset
/-!
# Arrays, matrices and who shares them

The other files treat matrices as values.  Here they are python objects that refer to numpy arrays, so that operations in
place (`sort_indices`, `items.sort()`, `data[mask] = 0`, `eliminate_zeros`) and sharing (`X.T`, `coo_matrix(X)`,
`tocsr()` of a CSR matrix) can be told from copies.  A reference is a position in memory; nothing is ever freed.

Simplified: the formats CSR, CSC and COO only; `astype` copies without adding up duplicates and without rounding;
`has_sorted_indices` is computed, not cached; `sort_indices` keeps the order of duplicates.
-/

namespace Implicit

/-- A numpy array of integers or of numbers. -/
inductive NpArray (R : Type) where
  | ints (l : List Int)
  | vals (l : List R)
deriving DecidableEq

inductive SpFormat where
  | csr
  | csc
  | coo
deriving DecidableEq

/-- A scipy matrix.  CSR: `minor` is `indices` (columns), `major` is `indptr`.  CSC: the same with rows.  COO: `minor` is
`col`, `major` is `row`. -/
structure SpObject where
  format : SpFormat
  float32 : Bool
  nrows : Nat
  ncols : Nat
  data : Nat
  minor : Nat
  major : Nat
deriving DecidableEq

structure PyMem (R : Type) where
  arrays : List (NpArray R)
  objects : List SpObject
deriving DecidableEq

variable {R : Type}

namespace PyMem

def ints (m : PyMem R) (r : Nat) : List Int :=
  match m.arrays[r]? with
  | some (.ints l) => l
  | _ => []

def vals (m : PyMem R) (r : Nat) : List R :=
  match m.arrays[r]? with
  | some (.vals l) => l
  | _ => []

def object (m : PyMem R) (x : Nat) : SpObject := m.objects.getD x ⟨.coo, true, 0, 0, 0, 0, 0⟩

/-- A new array. -/
def newArray (m : PyMem R) (a : NpArray R) : Nat × PyMem R :=
  (m.arrays.length, { m with arrays := m.arrays ++ [a] })

/-- A new object. -/
def newObject (m : PyMem R) (o : SpObject) : Nat × PyMem R :=
  (m.objects.length, { m with objects := m.objects ++ [o] })

/-- Assignment to the elements of an array. -/
def setArray (m : PyMem R) (r : Nat) (a : NpArray R) : PyMem R := { m with arrays := m.arrays.set r a }

/-- Assignment to an attribute of an object. -/
def setObject (m : PyMem R) (x : Nat) (o : SpObject) : PyMem R := { m with objects := m.objects.set x o }

/-- The compressed rows (or columns) of a CSR (CSC) object. -/
def slices (m : PyMem R) (o : SpObject) : List (List (Int × R)) :=
  slicesAt ((m.ints o.minor).zip (m.vals o.data)) ((m.ints o.major).map Int.toNat)

/-- The stored triples of an object in memory order. -/
def triples (m : PyMem R) (o : SpObject) : List (Nat × Nat × R) :=
  match o.format with
  | .coo => ((m.ints o.major).zip ((m.ints o.minor).zip (m.vals o.data))).map fun e => (e.1.toNat, e.2.1.toNat, e.2.2)
  | .csr => (m.slices o).zipIdx.flatMap fun p => p.1.map fun e => (p.2, e.1.toNat, e.2)
  | .csc => (m.slices o).zipIdx.flatMap fun p => p.1.map fun e => (e.1.toNat, p.2, e.2)

/-- A new matrix with three new arrays. -/
def newMatrix (m : PyMem R) (fmt : SpFormat) (float32 : Bool) (nrows ncols : Nat) (data : List R) (minor major : List Int) :
    Nat × PyMem R :=
  let (d, m) := m.newArray (.vals data)
  let (i, m) := m.newArray (.ints minor)
  let (p, m) := m.newArray (.ints major)
  m.newObject ⟨fmt, float32, nrows, ncols, d, i, p⟩

/-- A new CSR matrix with the given rows. -/
def newCsr (m : PyMem R) (float32 : Bool) (nrows ncols : Nat) (rows : SpRows R) : Nat × PyMem R :=
  let t := csrArrays rows
  m.newMatrix .csr float32 nrows ncols t.data (t.indices.map Int.ofNat) (t.indptr.map Int.ofNat)

/-- A new COO matrix with the given triples. -/
def newCoo (m : PyMem R) (float32 : Bool) (nrows ncols : Nat) (entries : List (Nat × Nat × R)) : Nat × PyMem R :=
  m.newMatrix .coo float32 nrows ncols (entries.map fun e => e.2.2) (entries.map fun e => Int.ofNat e.2.1)
    (entries.map fun e => Int.ofNat e.1)

/-- `X.astype(np.float32)` for another type: everything is copied. -/
def astypeFloat32 (m : PyMem R) (x : Nat) : Nat × PyMem R :=
  let o := m.object x
  m.newMatrix o.format true o.nrows o.ncols (m.vals o.data) (m.ints o.minor) (m.ints o.major)

/-- `alpha * X` for a CSR matrix: everything is copied. -/
def scale [Mul R] (m : PyMem R) (alpha : R) (x : Nat) : Nat × PyMem R :=
  let o := m.object x
  m.newMatrix o.format o.float32 o.nrows o.ncols ((m.vals o.data).map (alpha * ·)) (m.ints o.minor) (m.ints o.major)

/-- `X.T`: another object with the same arrays. -/
def transpose (m : PyMem R) (x : Nat) : Nat × PyMem R :=
  let o := m.object x
  match o.format with
  | .csr => m.newObject { o with format := .csc, nrows := o.ncols, ncols := o.nrows }
  | .csc => m.newObject { o with format := .csr, nrows := o.ncols, ncols := o.nrows }
  | .coo => m.newObject { o with nrows := o.ncols, ncols := o.nrows, minor := o.major, major := o.minor }

/-- `X.tocsr()`: a CSR matrix is returned as it is; COO adds up duplicates, CSC does not. -/
def toCsr [LinearOrder R] [Field R] (m : PyMem R) (x : Nat) : Nat × PyMem R :=
  let o := m.object x
  match o.format with
  | .csr => (x, m)
  | .coo => m.newCsr o.float32 o.nrows o.ncols (cooToCsr o.nrows (m.triples o))
  | .csc => m.newCsr o.float32 o.nrows o.ncols
      ((List.range o.nrows).map fun r => ((m.triples o).filter fun e => e.1 == r).map fun e => e.2)

/-- `check_csr(X)` (`implicit/utils.py:159-169`). -/
def checkCsr [LinearOrder R] [Field R] (m : PyMem R) (x : Nat) : Nat × PyMem R := m.toCsr x

/-- `X.tocoo()`: a COO matrix is returned as it is, the others are copied. -/
def toCoo (m : PyMem R) (x : Nat) : Nat × PyMem R :=
  let o := m.object x
  match o.format with
  | .coo => (x, m)
  | _ => m.newCoo o.float32 o.nrows o.ncols (m.triples o)

/-- `coo_matrix(X)`: a new object; it shares the arrays of a COO matrix. -/
def cooMatrixOf (m : PyMem R) (x : Nat) : Nat × PyMem R :=
  let (y, m) := m.toCoo x
  m.newObject (m.object y)

/-- Are the columns of every row in order (`X.has_sorted_indices`)? -/
def hasSortedIndices (m : PyMem R) (x : Nat) : Bool :=
  (m.slices (m.object x)).all fun row => decide ((row.map Prod.fst).Pairwise (· ≤ ·))

/-- The entries of an array with the slices between the pointers sorted. -/
def sortSlices (entries : List (Int × R)) (indptr : List Nat) : List (Int × R) :=
  entries.take (indptr.headD 0) ++ ((slicesAt entries indptr).map fun row =>
    row.insertionSort fun a b => a.1 ≤ b.1).flatten ++ entries.drop (indptr.getLastD 0)

/-- `X.sort_indices()`: in place. -/
def sortIndices (m : PyMem R) (x : Nat) : PyMem R :=
  let o := m.object x
  let sorted := sortSlices ((m.ints o.minor).zip (m.vals o.data)) ((m.ints o.major).map Int.toNat)
  (m.setArray o.minor (.ints (sorted.map Prod.fst))).setArray o.data (.vals (sorted.map Prod.snd))

/-- `X.eliminate_zeros()` for a CSR matrix: in place. -/
def eliminateZeros [DecidableEq R] [Zero R] (m : PyMem R) (x : Nat) : PyMem R :=
  let o := m.object x
  let rows := (m.slices o).map fun row => row.filter fun e => e.2 ≠ 0
  ((m.setArray o.minor (.ints (rows.flatten.map Prod.fst))).setArray o.data (.vals (rows.flatten.map Prod.snd))).setArray
    o.major (.ints (((rows.map List.length).scanl (· + ·) 0).map Int.ofNat))

end PyMem

open PyMem

/-! ## Training -/

section Training

variable [LinearOrder R] [Field R]

/-- `if X.dtype != np.float32: X = X.astype(np.float32)`. -/
def toFloat32 (m : PyMem R) (x : Nat) : Nat × PyMem R := if (m.object x).float32 then (x, m) else m.astypeFloat32 x

/-- `if not X.has_sorted_indices: X.sort_indices()`. -/
def ensureSorted (m : PyMem R) (x : Nat) : PyMem R := if m.hasSortedIndices x then m else m.sortIndices x

/-- The matrix `BayesianPersonalizedRanking.fit` trains on (`implicit/cpu/bpr.pyx:138-148`). -/
def bprPrepare (verify : Bool) (m : PyMem R) (x : Nat) : Nat × PyMem R :=
  let (x, m) := toFloat32 m x
  let (x, m) := m.checkCsr x
  (x, if verify then ensureSorted m x else m)

/-- The same on the GPU (`implicit/gpu/bpr.py:85-95`). -/
def gpuBprPrepare (verify : Bool) (m : PyMem R) (x : Nat) : Nat × PyMem R :=
  let (x, m) := m.checkCsr x
  let (x, m) := toFloat32 m x
  (x, if verify then ensureSorted m x else m)

/-- The matrix and its transpose in `LogisticMatrixFactorization.fit` (`implicit/cpu/lmf.pyx:130-142`). -/
def lmfPrepare (m : PyMem R) (x : Nat) : (Nat × Nat) × PyMem R :=
  let (x, m) := toFloat32 m x
  let (x, m) := m.checkCsr x
  let (t, m) := m.transpose x
  let (t, m) := m.toCsr t
  let m := ensureSorted m t
  ((x, t), ensureSorted m x)

/-- The matrix and its transpose in `AlternatingLeastSquares.fit` (`implicit/cpu/als.py:127-136`). -/
def alsPrepare (alpha : R) (m : PyMem R) (x : Nat) : (Nat × Nat) × PyMem R :=
  let (x, m) := m.checkCsr x
  let (x, m) := toFloat32 m x
  let (x, m) := if alpha ≠ 1 then m.scale alpha x else (x, m)
  let (t, m) := m.transpose x
  let (t, m) := m.toCsr t
  ((x, t), m)

/-- The matrix used by `recalculate_user` and `recalculate_item` (`implicit/cpu/als.py:218-227,255-258`). -/
def recalculatePrepare (alpha : R) (m : PyMem R) (x : Nat) : Nat × PyMem R :=
  let (x, m) := m.checkCsr x
  if alpha ≠ 1 then m.scale alpha x else (x, m)

end Training

/-! ## Queries -/

/-- The argument `items` of a query. -/
inductive ItemsArg where
  | list (l : List Int)
  | array (r : Nat)
deriving DecidableEq

/-- The elements of the argument. -/
def ItemsArg.values (m : PyMem R) : ItemsArg → List Int
  | .list l => l
  | .array r => m.ints r

section Queries

variable [LinearOrder R] [Field R]

/-- `items = np.array(items); items.sort()` (`implicit/cpu/matrix_factorization_base.py:60-61`). -/
def sortedItems (m : PyMem R) (items : ItemsArg) : Nat × PyMem R :=
  let (r, m) := m.newArray (.ints (items.values m))
  (r, m.setArray r (.ints ((m.ints r).insertionSort (· ≤ ·))))

/-- `np.clip(np.searchsorted(items, col), 0, len(items) - 1)`. -/
def clippedPosition (items : List Int) (c : Int) : Nat := min (items.countP (· < c)) (items.length - 1)

/-- `_filter_items_from_sparse_matrix` (`implicit/cpu/matrix_factorization_base.py:253-266`). -/
def filterSparse (m : PyMem R) (items x : Nat) : Nat × PyMem R :=
  let (y, m) := m.toCoo x
  let its := m.ints items
  let o := m.object y
  let cols := m.ints o.minor
  let positions := cols.map (clippedPosition its)
  -- filter_query_items.data[items[positions] != filter_query_items.col] = 0
  let m := m.setArray o.data (.vals ((cols.zip (m.vals o.data)).map fun e =>
    if its[clippedPosition its e.1]? = some e.1 then e.2 else 0))
  -- filter_query_items.col = positions
  let (c, m) := m.newArray (.ints (positions.map Int.ofNat))
  let o := { o with minor := c }
  let m := m.setObject y o
  -- eliminate_zeros of a COO matrix replaces its three arrays
  let kept := (m.triples o).filter fun e => e.2.2 ≠ 0
  let (d, m) := m.newArray (.vals (kept.map fun e => e.2.2))
  let (c, m) := m.newArray (.ints (kept.map fun e => Int.ofNat e.2.1))
  let (r, m) := m.newArray (.ints (kept.map fun e => Int.ofNat e.1))
  let m := m.setObject y { o with data := d, minor := c, major := r }
  m.toCsr y

/-- The part of `recommend` that touches its arguments (`implicit/cpu/matrix_factorization_base.py:55-77`) when all checks
pass: the sorted array of items, if any, and the matrix of items to filter, if any. -/
def recommendPrepare (m : PyMem R) (userItems : Nat) (filterLiked : Bool) (items : Option ItemsArg) :
    (Option Nat × Option Nat) × PyMem R :=
  match items with
  | none => ((none, if filterLiked then some userItems else none), m)
  | some its =>
    let (r, m) := sortedItems m its
    if filterLiked then
      let (y, m) := filterSparse m r userItems
      ((some r, some y), m)
    else ((some r, none), m)

end Queries

/-! ## Splits -/

section Splits

variable [LinearOrder R] [Field R]

/-- `train_test_split` (`implicit/evaluation.pyx:30-48`): the objects (train, test). -/
def splitObjects {Gen : Type} (I : RngImpl R Gen) (P : Process R Gen) (m : PyMem R) (x : Nat) (p : R)
    (rs : RandomState Gen) : Except Err (Nat × Nat) × PyMem R :=
  let (y, m) := m.toCoo x
  match checkRandomState I P rs with
  | .error e => (.error e, m)
  | .ok g =>
    let o := m.object y
    let entries := m.triples o
    let marked := entries.zip (I.random g (m.vals o.data).length)
    let (train, m) := m.newCsr o.float32 o.nrows o.ncols
      (cooToCsr o.nrows ((marked.filter fun e => decide (e.2 < p)).map Prod.fst))
    let (test, m) := m.newCsr o.float32 o.nrows o.ncols
      (cooToCsr o.nrows ((marked.filter fun e => decide (p ≤ e.2)).map Prod.fst))
    let t := m.object test
    -- test.data[test.data < 0] = 0
    let m := m.setArray t.data (.vals ((m.vals t.data).map fun v => if v < 0 then 0 else v))
    (.ok (train, test), m.eliminateZeros test)

end Splits

/-! ## Weights -/

noncomputable section Weights

/-- The COO matrix as the weighting functions see it. -/
def PyMem.asCoo (m : PyMem ℝ) (o : SpObject) : Coo := ⟨o.nrows, m.triples o⟩

/-- `X = coo_matrix(X); …; X.data = …; return X`. -/
def reweighted (weights : Coo → List ℝ) (m : PyMem ℝ) (x : Nat) : Nat × PyMem ℝ :=
  let (y, m) := m.cooMatrixOf x
  let o := m.object y
  let (d, m) := m.newArray (.vals (weights (m.asCoo o)))
  (y, m.setObject y { o with data := d })

/-- `tfidf_weight` (`implicit/nearest_neighbours.py:216-226`). -/
def tfidfObject : PyMem ℝ → Nat → Nat × PyMem ℝ := reweighted fun X => (tfidfWeight X).entries.map fun e => e.2.2

/-- `normalize` (`implicit/nearest_neighbours.py:229-234`). -/
def normalizeObject : PyMem ℝ → Nat → Nat × PyMem ℝ := reweighted fun X => (normalizeRows X).entries.map fun e => e.2.2

/-- `bm25_weight` (`implicit/nearest_neighbours.py:237-252`). -/
def bm25Object (K1 B : ℝ) : PyMem ℝ → Nat → Nat × PyMem ℝ :=
  reweighted fun X => (bm25Weight K1 B X).entries.map fun e => e.2.2

end Weights

end Implicit
