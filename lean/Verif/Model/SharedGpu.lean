import Verif.Model.Threads
import Verif.Model.ALSState
import Verif.Model.GpuKnn
/-!
# Factor models on the GPU used by several threads

The parts of `implicit/gpu/matrix_factorization_base.py`, `implicit/gpu/als.py` and `implicit/gpu/knn.cu` that threads can disturb for
each other: the norms kept on the device and on the host, the Gram matrix and the memory pool of `KnnQuery`.  `topk`,
`calculate_yty` and `least_squares` release the interpreter lock.
-/

namespace Implicit

variable {R : Type} [LinearOrder R] [Field R] {f : Nat}

/-- `self.item_factors`, `self._item_norms`, `self._item_norms_host`, the matrices created so far and the number of the one that
`self._YtY` names, and the bytes of the pool in use. -/
structure GpuShared (f : Nat) (R : Type) where
  item : List (Vec f R)
  dev : Option (List R)
  host : Option (List R)
  mats : List (Mat f R)
  yty : Option Nat
  used : Nat

abbrev GpuThread (f : Nat) (R α : Type) := Prog (GpuShared f R) (Except Err α)

/-- A model without cached values. -/
def GpuShared.cold (item : List (Vec f R)) : GpuShared f R := ⟨item, none, none, [], none, 0⟩

/-- What a property returns when the attribute is read at the end. -/
def gpuNotNone {α : Type} : Option α → Except Err α
  | some a => .ok a
  | none => .error .typeError

/-- `item_norms` (`implicit/gpu/matrix_factorization_base.py:112-117`): the copy on the host is made after the attribute is set. -/
def gpuNormsProg (norms : List (Vec f R) → List R) : GpuThread f R (List R) :=
  (Prog.read fun s => s.dev).bind fun
    | some _ => .read fun s => gpuNotNone s.dev
    | none =>
      (Prog.read fun s => norms s.item).bind fun a =>
      (Prog.write fun s => { s with dev := some a }).bind fun _ =>
      (Prog.read fun s => s.dev).bind fun d =>
      (Prog.write fun s => { s with host := d }).bind fun _ =>
      .read fun s => gpuNotNone s.dev

/-- `self._item_norms_host[itemid]`. -/
def gpuHostNorm (itemid : Nat) : Option (List R) → Except Err R
  | none => .error .typeError
  | some h =>
    match h[itemid]? with
    | some x => .ok x
    | none => .error .indexError

/-- The norms that `similar_items` divides by (`implicit/gpu/matrix_factorization_base.py:177-217`): those of the items, read by
`topk` on the device, and that of the item asked about, read from `self._item_norms_host[itemid]`. -/
def gpuSimilarNormsProg (norms : List (Vec f R) → List R) (itemid : Nat) : GpuThread f R (List R × R) :=
  (gpuNormsProg norms).andThen fun a =>
  (Prog.read fun s => gpuHostNorm itemid s.host).andThen fun x =>
  .done (.ok (a, x))

/-- `YtY` (`implicit/gpu/als.py:282-287`): `self._YtY` names a matrix of zeros until `calculate_yty` has filled it. -/
def gpuGramProg (gramOf : List (Vec f R) → Mat f R) : GpuThread f R Nat :=
  (Prog.read fun s => s.yty).bind fun
    | some _ => .read fun s => gpuNotNone s.yty
    | none =>
      (Prog.write fun s => { s with mats := s.mats ++ [fun _ _ => 0], yty := some s.mats.length }).bind fun _ =>
      (Prog.read fun s => gpuNotNone s.yty).andThen fun p =>
      (Prog.write fun s => { s with mats := s.mats.set p (gramOf s.item) }).bind fun _ =>
      .read fun s => gpuNotNone s.yty

/-- The Gram matrix with which `recalculate_user` solves (`implicit/gpu/als.py:180-192`). -/
def gpuSolveGramProg (gramOf : List (Vec f R) → Mat f R) : GpuThread f R (Mat f R) :=
  (gpuGramProg gramOf).andThen fun p => .read fun s => .ok (s.mats.getD p fun _ _ => 0)

/-- The allocations of `topk_impl` (`implicit/gpu/knn.cu:140-182`) from the pool of `maxMem` bytes, which is shared by all calls on
the model, and their release at the end.  The batch size is computed as if the call had the pool for itself.  An allocation that does
not fit raises.  Simplification: the three buffers are allocated in one step. -/
def gpuPoolProg (maxMem itemsize rows items k : Nat) : GpuThread f R Nat :=
  match gpuBatchSize maxMem itemsize rows items k with
  | .error e => .done (.error e)
  | .ok batch =>
    let need := 2 * (rows * k * 4) + batch * items * itemsize
    (Prog.atomic fun s => if maxMem < s.used + need then (s, Except.error Err.runtimeError)
      else ({ s with used := s.used + need }, .ok ())).andThen fun _ =>
    (Prog.write fun s => { s with used := s.used - need }).bind fun _ =>
    .done (.ok batch)

end Implicit
