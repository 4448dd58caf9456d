import Verif.Model.Basic
import Verif.Model.Memory

/-!
# Model: device matrices (`implicit/gpu/matrix.cu:34-171`, `implicit/gpu/_cuda.pyx:85-215`)

A device buffer is a list of cells; a matrix is a window of a buffer (`storage` is shared between a matrix and
its slices).  A cell holds one element, 4 or 2 bytes wide: `itemsize` is only a tag of the matrix, and
`toHalf` is the conversion of a float to half precision (the converse is exact).  Buffers are never freed
(`shared_ptr`).  `thrust::for_each` runs its iterations in any order: the order is a parameter.
Not modelled: `__cuda_array_interface__` inputs, allocation failures, `calculate_norms`.
-/

namespace Implicit

variable {R : Type}

/-- `struct Matrix`: matrix.h:53-90.  `data = storage + off`. -/
structure DevMatrix where
  rows : Nat
  cols : Nat
  buf : Nat
  off : Nat
  itemsize : Nat
deriving DecidableEq, Repr

/-- The device memory and the python `Matrix` objects created so far. -/
structure Device (R : Type) where
  heap : List (List R)
  mats : List DevMatrix

/-- `astype("int32")` of a numpy integer: wraps around (_cuda.pyx:144, 164). -/
def toInt32 (i : Int) : Int := (i + 2 ^ 31) % 2 ^ 32 - 2 ^ 31

/-- Reading element `i` of a matrix; outside of the buffer: undefined behaviour. -/
def Device.read (d : Device R) (m : DevMatrix) (i : Nat) : Except Err R :=
  match (d.heap.getD m.buf [])[m.off + i]? with
  | some v => .ok v
  | none => .error .undefinedBehaviour

/-- A new buffer with a new matrix on it. -/
def Device.push (d : Device R) (rows cols itemsize : Nat) (cells : List R) : Device R :=
  { heap := d.heap ++ [cells], mats := d.mats ++ [⟨rows, cols, d.heap.length, 0, itemsize⟩] }

/-- A new matrix on an existing buffer. -/
def Device.view (d : Device R) (m : DevMatrix) : Device R := { d with mats := d.mats ++ [m] }

/-- A two dimensional numpy array: its memory, the position of element `(0, 0)` and the strides (in elements).
Simplification: strides are not negative. -/
structure HostArray (R : Type) where
  rows : Nat
  cols : Nat
  itemsize : Nat
  mem : List R
  start : Nat
  stride0 : Nat
  stride1 : Nat

/-- Element `i` of the memory after element `(0, 0)`. -/
def HostArray.read (x : HostArray R) (i : Nat) : Except Err R :=
  match x.mem[x.start + i]? with
  | some v => .ok v
  | none => .error .undefinedBehaviour

/-- `Matrix.__cinit__`: _cuda.pyx:104-114 and matrix.cu:80-96.  `&temp[0, 0]` is bounds checked (an empty array
raises); the copy takes `rows * cols` consecutive elements. -/
def devFromHost (x : HostArray R) (d : Device R) : Except Err (Device R) := do
  if x.itemsize ≠ 4 ∧ x.itemsize ≠ 2 then .error .valueError else
  if x.rows = 0 ∨ x.cols = 0 then .error .indexError else
  let cells ← (List.range (x.rows * x.cols)).mapM x.read
  .ok (d.push x.rows x.cols x.itemsize cells)

/-- `Matrix.zeros`: _cuda.pyx:116-120, matrix.cu:90-92. -/
def devZeros [Zero R] (rows cols : Nat) (d : Device R) : Device R :=
  d.push rows cols 4 (List.replicate (rows * cols) 0)

/-- The argument of `__getitem__`: _cuda.pyx:126-160. -/
inductive DevIndex where
  /-- `slice(start, stop, step)` -/
  | slice (start stop step : Option Int)
  /-- a python `int` -/
  | int (i : Int)
  /-- anything `np.array` turns into a one dimensional array of integers -/
  | ids (l : List Int)
  /-- an array of two or more dimensions, or nothing convertible -/
  | other

/-- `Matrix::Matrix(other, rowid)`: matrix.cu:34-40; the `int` is converted to `size_t`. -/
def devRow (m : DevMatrix) (rowid : Int) (d : Device R) : Except Err (Device R) :=
  if (m.rows : Int) ≤ rowid % 2 ^ 64 then .error .valueError
  else .ok (d.view { m with rows := 1, off := m.off + (rowid % 2 ^ 64).toNat * m.cols })

/-- `Matrix::Matrix(other, start, end)`: matrix.cu:42-52. -/
def devSlice (m : DevMatrix) (start stop : Nat) (d : Device R) : Except Err (Device R) :=
  if stop < start then .error .valueError
  else if m.rows < stop then .error .valueError
  else .ok (d.view { m with rows := stop - start, off := m.off + start * m.cols })

/-- `Matrix::Matrix(other, rowids)`: matrix.cu:54-78. -/
def devGather (m : DevMatrix) (ids : List Int) (d : Device R) : Except Err (Device R) := do
  let cells ← (List.range (ids.length * m.cols)).mapM fun i =>
    d.read m (i % m.cols + (ids.getD (i / m.cols) 0).toNat * m.cols)
  .ok (d.push ids.length m.cols m.itemsize cells)

/-- `Matrix.__getitem__`: _cuda.pyx:126-160.  Python integers are converted to `size_t` (`int`) with an
`OverflowError` when they do not fit. -/
def devGetItem (m : DevMatrix) (idx : DevIndex) (d : Device R) : Except Err (Device R) :=
  match idx with
  | .slice start stop step =>
    if step ≠ none ∧ step ≠ some 0 ∧ step ≠ some 1 then .error .valueError else
    let a := start.getD 0
    let b := stop.getD m.rows
    if a < 0 ∨ 2 ^ 64 ≤ a ∨ b < 0 ∨ 2 ^ 64 ≤ b then .error .overflowError
    else devSlice m a.toNat b.toNat d
  | .int i =>
    if i < -2 ^ 31 ∨ 2 ^ 31 ≤ i then .error .overflowError else devRow m i d
  | .ids l =>
    let l := l.map toInt32
    if l.any fun i => decide (i < 0 ∨ (m.rows : Int) ≤ i) then .error .indexError
    else if l.isEmpty then .error .indexError
    else devGather m l d
  | .other => .error .indexError

/-- One iteration of `Matrix::assign_rows`: matrix.cu:138-141.  `row` is the `int` converted to `size_t` and the
address is computed modulo `2 ^ 64`, that is, a negative row is an offset below `data`. -/
def devAssignStep (m other : DevMatrix) (rowids : List Int) (d : Device R) (i : Nat) : Except Err (Device R) :=
  match rowids[i / other.cols]? with
  | none => .error .undefinedBehaviour
  | some row => do
    let v ← d.read other i
    let addr : Int := m.off + ((i % other.cols : Nat) : Int) + row * other.cols
    if addr < 0 then .error .undefinedBehaviour else
    let b ← writeCell (d.heap.getD m.buf []) (addr.toNat, v)
    .ok { d with heap := d.heap.set m.buf b }

/-- `Matrix.assign_rows`: _cuda.pyx:162-165, matrix.cu:122-143.  `order` lists the iterations in the order they
are executed.  Half precision raises (`operator const float *`). -/
def devAssignRows (order : List Nat) (m other : DevMatrix) (rowids : List Int) (d : Device R) :
    Except Err (Device R) :=
  if rowids.isEmpty then .error .indexError
  else if other.cols ≠ m.cols then .error .valueError
  else if other.itemsize ≠ 4 ∨ m.itemsize ≠ 4 then .error .runtimeError
  else order.foldlM (devAssignStep m other (rowids.map toInt32)) d

/-- `Matrix.astype`: _cuda.pyx:167-177, matrix.cu:145-171.  The same size: a copy of the struct, that is, the
same buffer. -/
def devAsType (toHalf : R → R) (m : DevMatrix) (itemsize : Nat) (d : Device R) : Except Err (Device R) :=
  if itemsize ≠ 2 ∧ itemsize ≠ 4 then .error .valueError
  else if itemsize = m.itemsize then .ok (d.view m)
  else do
    let cells ← (List.range (m.rows * m.cols)).mapM fun i => d.read m i
    .ok (d.push m.rows m.cols itemsize (if itemsize = 2 then cells.map toHalf else cells))

/-- `Matrix.resize` of object `h`: _cuda.pyx:179-180, matrix.cu:98-120. -/
def devResize [Zero R] (h : Nat) (m : DevMatrix) (rows cols : Int) (d : Device R) : Except Err (Device R) :=
  if rows < 0 ∨ 2 ^ 64 ≤ rows ∨ cols < 0 ∨ 2 ^ 64 ≤ cols then .error .overflowError
  else if cols.toNat ≠ m.cols then .error .runtimeError
  else if rows.toNat < m.rows then .error .runtimeError
  else do
    let cells ← (List.range (m.rows * m.cols)).mapM fun i => d.read m i
    .ok { heap := d.heap ++ [cells ++ List.replicate ((rows.toNat - m.rows) * m.cols) 0],
          mats := d.mats.set h ⟨rows.toNat, m.cols, d.heap.length, 0, m.itemsize⟩ }

/-- `Matrix.to_numpy`: _cuda.pyx:182-197; `&temp[0, 0]` raises for an empty matrix. -/
def devToNumpy (m : DevMatrix) (d : Device R) : Except Err (List R) :=
  if m.rows = 0 ∨ m.cols = 0 then .error .indexError
  else (List.range (m.rows * m.cols)).mapM fun i => d.read m i

/-- A python statement on device matrices; `h`, `o` are numbers of objects in order of creation. -/
inductive DevOp (R : Type) where
  | fromHost (x : HostArray R)
  | zeros (rows cols : Nat)
  | getItem (h : Nat) (idx : DevIndex)
  | assignRows (order : List Nat) (h o : Nat) (rowids : List Int)
  | asType (h itemsize : Nat)
  | resize (h : Nat) (rows cols : Int)

/-- One statement.  An unknown object is an `AttributeError` (of `None`). -/
def devStep [Zero R] (toHalf : R → R) (d : Device R) : DevOp R → Except Err (Device R)
  | .fromHost x => devFromHost x d
  | .zeros r c => .ok (devZeros r c d)
  | .getItem h idx => match d.mats[h]? with
    | none => .error .attributeError
    | some m => devGetItem m idx d
  | .assignRows order h o ids => match d.mats[h]?, d.mats[o]? with
    | some m, some m' => devAssignRows order m m' ids d
    | _, _ => .error .attributeError
  | .asType h s => match d.mats[h]? with
    | none => .error .attributeError
    | some m => devAsType toHalf m s d
  | .resize h r c => match d.mats[h]? with
    | none => .error .attributeError
    | some m => devResize h m r c d

/-- A session: an exception is caught and leaves the state as it is, undefined behaviour ends the session. -/
def devRun [Zero R] (toHalf : R → R) : Device R → List (DevOp R) → Except Err (Device R)
  | d, [] => .ok d
  | d, op :: ops => match devStep toHalf d op with
    | .ok d' => devRun toHalf d' ops
    | .error .undefinedBehaviour => .error .undefinedBehaviour
    | .error _ => devRun toHalf d ops

end Implicit
