import Verif.Model.Basic
import Mathlib.Data.List.Basic
/-!
# Who owns the device memory of a `Matrix`

`implicit/gpu/matrix.h:27-99`: a C++ `Matrix` has a pointer `data` and a `shared_ptr` `storage` to the buffer it lies in; slices share
the buffer; a matrix made from an object with `__cuda_array_interface__` has no `storage`.  The Python object
(`implicit/gpu/_cuda.pyx:87-204`) owns the C++ object.  Contents are the subject of C46.
-/

namespace Implicit

/-- Where `data` points: into a buffer of the library or into an array of someone else. -/
inductive BufPtr where
  | buffer (n : Nat)
  | foreign (f : Nat)
deriving DecidableEq, Repr

/-- A Python `Matrix`: how many references there are to it, its `storage` and its `data`. -/
structure BufMatrix where
  refs : Nat
  storage : Option Nat
  data : BufPtr
deriving DecidableEq, Repr

/-- `live`: buffers not yet freed.  `next`: number of the next one.  `objs`: the matrices, `none` once deleted.  `foreign`: arrays of
others that still exist.  `pending`: calls running without the interpreter lock: their argument and the pointer they have read.
`broken`: freed memory was used. -/
structure BufState where
  live : List Nat
  next : Nat
  objs : List (Option BufMatrix)
  foreign : List Nat
  pending : List (Nat × BufPtr)
  broken : Bool
deriving DecidableEq, Repr

namespace BufState

def start (foreign : List Nat) : BufState := ⟨[], 0, [], foreign, [], false⟩

/-- The matrix with number `k`, if it exists. -/
def obj? (s : BufState) (k : Nat) : Option BufMatrix := (s.objs[k]?).join

/-- Does the memory still exist? -/
def valid (s : BufState) : BufPtr → Bool
  | .buffer n => s.live.contains n
  | .foreign f => s.foreign.contains f

/-- A `shared_ptr` was dropped: the buffer is freed unless another matrix has one to it. -/
def unref (s : BufState) : Option Nat → BufState
  | none => s
  | some n => if s.objs.any fun m => decide (m.bind BufMatrix.storage = some n) then s else { s with live := s.live.erase n }

/-- A Python reference to matrix `k` goes away; the last one deletes it (`__dealloc__`, `_cuda.pyx:202-204`). -/
def decref (s : BufState) (k : Nat) : BufState :=
  match s.obj? k with
  | none => s
  | some m =>
    if m.refs ≤ 1 then { s with objs := s.objs.set k none }.unref m.storage
    else { s with objs := s.objs.set k (some { m with refs := m.refs - 1 }) }

/-- A new matrix with a buffer of its own. -/
def fresh (s : BufState) : BufState :=
  { s with live := s.next :: s.live, next := s.next + 1, objs := s.objs ++ [some ⟨1, some s.next, .buffer s.next⟩] }

/-- Memory is read or written. -/
def touch (s : BufState) (p : BufPtr) : BufState := if s.valid p then s else { s with broken := true }

end BufState

/-- What Python code can do with matrices; the Booleans say which library calls fail. -/
inductive BufOp where
  /-- `Matrix(array)`, `Matrix.zeros`, `RandomState.uniform`, … (`matrix.cu:79-95`). -/
  | create (allocFails copyFails : Bool)
  /-- `Matrix(X)` for an array `X` of someone else (`_cuda.pyx:97-103`). -/
  | wrap (f : Nat)
  /-- `m[a:b]`, `m[i]`, `m.astype` to the type it has (`matrix.cu:34-53,158-161`). -/
  | share (k : Nat) (raises : Bool)
  /-- `m[ids]`, `m.astype` to another type, `calculate_norms(m)` (`matrix.cu:66-78,163-178,198-224`). -/
  | copy (k : Nat) (allocFails kernelFails : Bool)
  /-- `m.resize(rows, cols)` (`matrix.cu:97-120`). -/
  | resize (k : Nat) (raises allocFails copyFails setFails : Bool)
  /-- `m.to_numpy()`, `assign_rows`, … -/
  | use (k : Nat)
  /-- A call without the interpreter lock starts and reads the pointer (`_cuda.pyx:80-82,262-275`). -/
  | enter (k : Nat)
  /-- The oldest of these calls uses the pointer and returns. -/
  | leave
  /-- Python drops a reference to `m`, other than those of the running calls. -/
  | drop (k : Nat)
  /-- The other library frees its array. -/
  | dropForeign (f : Nat)
deriving DecidableEq, Repr

/-- One operation.  An exception in a constructor destroys the members made so far, among them `storage`; `resize` keeps the new
buffer in a plain pointer until `storage.reset`. -/
def BufOp.step (s : BufState) : BufOp → BufState × Except Err Unit
  | .create allocFails copyFails =>
    if allocFails || copyFails then (s, .error .runtimeError) else (s.fresh, .ok ())
  | .wrap f => ({ s with objs := s.objs ++ [some ⟨1, none, .foreign f⟩] }, .ok ())
  | .share k raises =>
    match s.obj? k with
    | none => (s, .error .attributeError)
    | some m =>
      if raises then (s, .error .valueError)
      else ({ s with objs := s.objs ++ [some { m with refs := 1 }] }, .ok ())
  | .copy k allocFails kernelFails =>
    match s.obj? k with
    | none => (s, .error .attributeError)
    | some m =>
      if allocFails then (s, .error .runtimeError)
      else if kernelFails then (s.touch m.data, .error .runtimeError)
      else ((s.touch m.data).fresh, .ok ())
  | .resize k raises allocFails copyFails setFails =>
    match s.obj? k with
    | none => (s, .error .attributeError)
    | some m =>
      if raises || allocFails then (s, .error .runtimeError)
      else
        let s1 := { s with live := s.next :: s.live, next := s.next + 1 }
        let s2 := s1.touch m.data
        if copyFails then (s2, .error .runtimeError)
        else
          let s3 := { s2 with objs := s2.objs.set k (some { m with storage := some s.next, data := .buffer s.next }) }
          (s3.unref m.storage, if setFails then .error .runtimeError else .ok ())
  | .use k =>
    match s.obj? k with
    | none => (s, .error .attributeError)
    | some m => (s.touch m.data, .ok ())
  | .enter k =>
    match s.obj? k with
    | none => (s, .error .attributeError)
    | some m =>
      ({ s with objs := s.objs.set k (some { m with refs := m.refs + 1 }), pending := s.pending ++ [(k, m.data)] }, .ok ())
  | .leave =>
    match s.pending with
    | [] => (s, .ok ())
    | (k, p) :: rest => ((({ s with pending := rest }).touch p).decref k, .ok ())
  | .drop k =>
    match s.obj? k with
    | none => (s, .error .attributeError)
    | some m => if (s.pending.countP fun c => c.1 == k) < m.refs then (s.decref k, .ok ()) else (s, .error .attributeError)
  | .dropForeign f => ({ s with foreign := s.foreign.erase f }, .ok ())

/-- A history of operations. -/
def BufState.run (s : BufState) (ops : List BufOp) : BufState := ops.foldl (fun s op => (op.step s).1) s

end Implicit
