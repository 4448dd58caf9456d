import Verif.Model.NearestNeighbours
import Mathlib.Algebra.Order.Floor.Defs
import Mathlib.Algebra.Order.Floor.Semiring
import Mathlib.Data.Rat.Floor
/-!
# Splitting ratings (`implicit/evaluation.pyx:14-232`, `implicit/utils.py:65-83`)
-/

namespace Implicit

variable {R : Type} [LinearOrder R] [Field R]

/-! ## Random numbers -/

/-- numpy random generators: `ofSeed k` is `np.random.default_rng(k)`, `random g n` is
`g.random(n)`, `choice g n size` is `g.choice(n, size=size, replace=False)`. -/
structure RngImpl (R : Type) (Gen : Type) where
  ofSeed : Nat → Gen
  random : Gen → Nat → List R
  choice : Gen → Nat → Nat → List Nat

/-- The random state of the process that a call may read: the generator that
`np.random.default_rng(None)` would make from the operating system's entropy, and the next values of the
global `np.random.random`. -/
structure Process (R : Type) (Gen : Type) where
  entropy : Gen
  globalRandom : Nat → List R

/-- The argument `random_state`. -/
inductive RandomState (Gen : Type) where
  | none
  | seed (k : Nat)
  | generator (g : Gen)
  /-- an `np.random.RandomState` -/
  | legacy

/-- `check_random_state` (`implicit/utils.py:65-83`).  `np.random.RandomState` has no method `rand_int`,
so the branch for it raises `AttributeError`. -/
def checkRandomState {Gen : Type} (I : RngImpl R Gen) (P : Process R Gen) :
    RandomState Gen → Except Err Gen
  | .none => .ok P.entropy
  | .seed k => .ok (I.ofSeed k)
  | .generator g => .ok g
  | .legacy => .error .attributeError

/-! ## `train_test_split` -/

/-- A sparse matrix as `coo_matrix`: shape and triples `(row, col, value)`. -/
structure Ratings (R : Type) where
  nrows : Nat
  ncols : Nat
  entries : List (Nat × Nat × R)

/-- A `csr_matrix`: shape and rows. -/
structure Csr (R : Type) where
  nrows : Nat
  ncols : Nat
  rows : SpRows R
deriving DecidableEq

/-- `csr_matrix((data, (row, col)), shape=...)`. -/
def Ratings.toCsr (X : Ratings R) (entries : List (Nat × Nat × R)) : Csr R :=
  ⟨X.nrows, X.ncols, cooToCsr X.nrows entries⟩

/-- `test.data[test.data < 0] = 0; test.eliminate_zeros()` (`implicit/evaluation.pyx:45-46`). -/
def clipNegative (M : Csr R) : Csr R :=
  { M with rows := M.rows.map fun row =>
      (row.map fun e => (e.1, if e.2 < 0 then 0 else e.2)).filter fun e => decide (e.2 ≠ 0) }

/-- `train_test_split` (`implicit/evaluation.pyx:14-48`): the pair (train, test). -/
def trainTestSplit {Gen : Type} (I : RngImpl R Gen) (P : Process R Gen) (X : Ratings R) (p : R)
    (rs : RandomState Gen) : Except Err (Csr R × Csr R) := do
  let g ← checkRandomState I P rs
  let draws := I.random g X.entries.length
  let marked := X.entries.zip draws
  let train := (marked.filter fun m => decide (m.2 < p)).map Prod.fst
  let test := (marked.filter fun m => decide (p ≤ m.2)).map Prod.fst
  pure (X.toCsr train, clipNegative (X.toCsr test))

/-! ## `leave_k_out_split` -/

/-- What is assumed of numpy's `argsort`: a permutation of the positions that sorts the keys; the order
of equal keys is arbitrary. -/
structure ArgSortIdx (α : Type) [LE α] where
  idx : List α → List Nat
  perm : ∀ l, (idx l).Perm (List.range l.length)
  sorted : ∀ l, ((idx l).filterMap fun i => l[i]?).Pairwise (· ≤ ·)

/-- `np.cumsum`. -/
def cumsum : Nat → List Nat → List Nat
  | _, [] => []
  | acc, x :: xs => (acc + x) :: cumsum (acc + x) xs

/-- `np.bincount(arr)`: as long as the greatest element requires. -/
def bincounts (arr : List Nat) : List Nat :=
  match arr.max? with
  | none => []
  | some m => (List.range (m + 1)).map fun u => arr.count u

/-- Indexing of a numpy array: negative indexes count from the end. -/
def pyGet {α : Type} (l : List α) (i : Int) : Except Err α :=
  let j := if i < 0 then i + l.length else i
  if j < 0 then .error .indexError
  else match l[j.toNat]? with
    | some x => .ok x
    | none => .error .indexError

/-- `ranges = np.linspace(start, end, num=n+1, dtype=int)[1:]` with `start = end - n`, raveled in
Fortran order (`implicit/evaluation.pyx:122-131`): `end-n+1, …, end` for every entry of `end`. -/
def tailRanges (arr : List Nat) (n : Nat) : List Int :=
  (cumsum 0 (bincounts arr)).flatMap fun (c : Nat) =>
    (List.range n).map fun (j : Nat) => ((c : Int) - 1) - (n : Int) + 1 + (j : Int)

/-- `_take_tails(arr, n, shuffled=True)` (`implicit/evaluation.pyx:77-138`), the tails only.  `random`
are the values of `np.random.random(arr.shape)`, the *global* generator; `fl` rounds the sum of a user number and a random value to a
`float64`. -/
def takeTails (A : ArgSortIdx Nat) (B : ArgSortIdx R) (fl : R → R) (arr : List Nat) (n : Nat) (random : List R) :
    Except Err (List Nat) := do
  let idx := A.idx arr
  let sortedArr := idx.filterMap fun i => arr[i]?
  let keys := (sortedArr.zip random).map fun p => fl ((p.1 : R) + p.2)
  let shuffled := B.idx keys
  let tails ← (tailRanges sortedArr n).mapM fun i => pyGet shuffled i
  tails.mapM fun (t : Nat) => pyGet idx (t : Int)

/-- `_choose` (`implicit/evaluation.pyx:51-74`). -/
def choosePositions [FloorSemiring R] {Gen : Type} (I : RngImpl R Gen) (g : Gen) (n : Nat) (frac : R) :
    Except Err (List Nat) :=
  let size := max 1 ⌊(n : R) * frac⌋₊
  if n < size then .error .valueError else .ok (I.choice g n size)

/-- `leave_k_out_split` (`implicit/evaluation.pyx:141-232`): the pair (train, test). -/
def leaveKOutSplit [FloorSemiring R] {Gen : Type} (I : RngImpl R Gen) (A : ArgSortIdx Nat)
    (B : ArgSortIdx R) (fl : R → R) (P : Process R Gen) (X : Ratings R) (K : Int) (trainOnly : R)
    (rs : RandomState Gen) : Except Err (Csr R × Csr R) := do
  if K < 1 then throw Err.valueError
  if trainOnly < 0 ∨ 1 ≤ trainOnly then throw Err.valueError
  let k := K.toNat
  let g ← checkRandomState I P rs
  let users := X.entries.map Prod.fst
  let uniqueUsers := users.dedup.insertionSort (· ≤ ·)
  let chosen ← if 0 < trainOnly then choosePositions I g uniqueUsers.length trainOnly else pure []
  let candidateUsers := uniqueUsers.filter fun u =>
    decide (k + 1 < users.count u) && !chosen.contains u
  let candidates := X.entries.filter fun e => candidateUsers.contains e.1
  let rest := X.entries.filter fun e => !candidateUsers.contains e.1
  let arr := candidates.map Prod.fst
  let testIdx ← takeTails A B fl arr k (P.globalRandom arr.length)
  let trainIdx := (List.range arr.length).filter fun i => !testIdx.contains i
  let test := testIdx.filterMap fun i => candidates[i]?
  let train := rest ++ trainIdx.filterMap fun i => candidates[i]?
  pure (X.toCsr train, X.toCsr test)

end Implicit
