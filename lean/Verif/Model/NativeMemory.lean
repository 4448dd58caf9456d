import Verif.Model.Threads
import Mathlib.Logic.Function.Basic
/-!
# Memory and handles taken by native code

Which blocks native code allocates, uses and frees, on every path; what is stored in them is the subject of other files.  A block is
named by the thread that allocated it and a number, so two blocks that exist at the same time have different names.
-/

namespace Implicit

/-- The blocks of one thread: how many it has allocated so far, and the numbers of those not yet freed. -/
structure OwnBlocks where
  next : Nat
  live : List Nat
deriving DecidableEq, Repr

/-- A pointer that is not null. -/
structure MemBlock where
  owner : Nat
  number : Nat
deriving DecidableEq, Repr

/-- `heaps t`: the blocks of thread `t`.  `calls`: how many calls that can fail were made so far.  `why`: the exception that a thread
of the running parallel section has raised (Cython keeps the first one).  `broken`: a null pointer or a freed block was used, a block
was freed twice, or a C++ exception was not caught, which ends the process. -/
structure NativeMem where
  heaps : Nat → OwnBlocks
  calls : Nat
  why : Option Err
  broken : Bool

abbrev NativeProg (α : Type) := Prog NativeMem α

namespace NativeMem

/-- A new block of thread `me`. -/
def alloc (s : NativeMem) (me : Nat) : NativeMem × MemBlock :=
  ({ s with heaps := Function.update s.heaps me ⟨(s.heaps me).next + 1, (s.heaps me).next :: (s.heaps me).live⟩ },
    ⟨me, (s.heaps me).next⟩)

/-- Is the block allocated and not yet freed? -/
def isLive (s : NativeMem) (b : MemBlock) : Bool := (s.heaps b.owner).live.contains b.number

/-- Give a block back. -/
def release (s : NativeMem) (b : MemBlock) : NativeMem :=
  let own := s.heaps b.owner
  { s with heaps := Function.update s.heaps b.owner ⟨own.next, own.live.erase b.number⟩ }

end NativeMem

/-! ## Calls that can fail

`fails n` says whether call number `n` fails. -/

/-- `malloc`: a null pointer if it fails. -/
def mallocProg (fails : Nat → Bool) (me : Nat) : NativeProg (Option MemBlock) :=
  .atomic fun s =>
    let s := { s with calls := s.calls + 1 }
    if fails (s.calls - 1) then (s, none) else ((s.alloc me).1, some (s.alloc me).2)

/-- `new` of a C++ class: an exception if it fails.  Constructors declared without `except +` let it pass through, which ends the
process. -/
def newProg (declared : Bool) (fails : Nat → Bool) (me : Nat) : NativeProg (Except Err MemBlock) :=
  .atomic fun s =>
    let s := { s with calls := s.calls + 1 }
    if fails (s.calls - 1) then (if declared then s else { s with broken := true }, .error .runtimeError)
    else ((s.alloc me).1, .ok (s.alloc me).2)

/-- A library call whose result is checked by `CHECK_CUDA`, `CHECK_CURAND` or `CHECK_CUBLAS` (`implicit/gpu/utils.h:16-67`). -/
def checkedProg (fails : Nat → Bool) : NativeProg (Except Err Unit) :=
  .atomic fun s => ({ s with calls := s.calls + 1 }, if fails s.calls then .error .runtimeError else .ok ())

/-- Reading or writing through a pointer. -/
def useProg (p : Option MemBlock) : NativeProg Unit :=
  .write fun s =>
    match p with
    | none => { s with broken := true }
    | some b => if s.isLive b then s else { s with broken := true }

/-- `free(p)`, `del p`: nothing for a null pointer. -/
def freeProg (p : Option MemBlock) : NativeProg Unit :=
  .write fun s =>
    match p with
    | none => s
    | some b => if s.isLive b then s.release b else { s with broken := true }

/-- `try: p finally: fin`. -/
def tryFinally {α : Type} (p : NativeProg (Except Err α)) (fin : NativeProg Unit) : NativeProg (Except Err α) :=
  p.bind fun r => fin.bind fun _ => .done r

/-- The iterations of a `prange` that one thread is given.  An exception is kept for the end of the parallel section, and every thread
takes no further iterations once it sees that there is one. -/
def prangeProg (body : Nat → NativeProg (Except Err Unit)) : List Nat → NativeProg (Except Err Unit)
  | [] => .done (.ok ())
  | u :: us =>
    (Prog.read fun s => s.why.isSome).bind fun stop =>
      if stop then .done (.ok ())
      else
        (body u).bind fun
          | .ok () => prangeProg body us
          | .error e => (Prog.write fun s => { s with why := s.why.orElse fun _ => some e }).bind fun _ => .done (.error e)

/-! ## Parallel sections on the CPU, one thread each -/

/-- What happens to a row of `_least_squares`. -/
inductive AlsRow where
  | empty
  | solved
  | failed
deriving DecidableEq, Repr

/-- A row (`implicit/cpu/_als.pyx:98-138`): nothing for a row without entries; otherwise `A` and `b` are filled, `posv` solves in
place, and `b` is copied or an exception raised. -/
def alsRowProg (A b : Option MemBlock) : AlsRow → NativeProg (Except Err Unit)
  | .empty => .done (.ok ())
  | .solved => (useProg A).bind fun _ => (useProg b).bind fun _ => (useProg b).bind fun _ => .done (.ok ())
  | .failed => (useProg A).bind fun _ => (useProg b).bind fun _ => .done (.error .valueError)

/-- `_least_squares` (`implicit/cpu/_als.pyx:91-142`). -/
def alsThread (fails : Nat → Bool) (rows : Nat → AlsRow) (me : Nat) (tasks : List Nat) : NativeProg (Except Err Unit) :=
  (mallocProg fails me).bind fun A =>
  (mallocProg fails me).bind fun b =>
  tryFinally (prangeProg (fun u => alsRowProg A b (rows u)) tasks)
    ((freeProg A).bind fun _ => freeProg b)

/-- A row of the conjugate gradient solver (`implicit/cpu/_als.pyx:176-243`): `none` has no entries, `some false` starts with a
residual that is small enough. -/
def cgRowProg (Ap p r : Option MemBlock) : Option Bool → NativeProg (Except Err Unit)
  | none => .done (.ok ())
  | some more =>
    (useProg r).bind fun _ => (useProg p).bind fun _ =>
    if more then (useProg Ap).bind fun _ => (useProg r).bind fun _ => (useProg p).bind fun _ => .done (.ok ())
    else .done (.ok ())

/-- `_least_squares_cg` (`implicit/cpu/_als.pyx:171-248`). -/
def cgThread (fails : Nat → Bool) (rows : Nat → Option Bool) (me : Nat) (tasks : List Nat) : NativeProg (Except Err Unit) :=
  (mallocProg fails me).bind fun Ap =>
  (mallocProg fails me).bind fun p =>
  (mallocProg fails me).bind fun r =>
  tryFinally (prangeProg (fun u => cgRowProg Ap p r (rows u)) tasks)
    ((freeProg p).bind fun _ => (freeProg r).bind fun _ => freeProg Ap)

/-- `_calculate_loss` (`implicit/cpu/_als.pyx:274-305`): every row uses `r`; the second loop needs no memory. -/
def lossThread (fails : Nat → Bool) (me : Nat) (tasks : List Nat) : NativeProg (Except Err Unit) :=
  (mallocProg fails me).bind fun r =>
  tryFinally (prangeProg (fun _ => (useProg r).bind fun _ => .done (.ok ())) tasks) (freeProg r)

/-- `lmf_update` (`implicit/cpu/lmf.pyx:248-292`): rows without entries are skipped. -/
def lmfThread (fails : Nat → Bool) (empty : Nat → Bool) (me : Nat) (tasks : List Nat) : NativeProg (Except Err Unit) :=
  (mallocProg fails me).bind fun deriv =>
  tryFinally (prangeProg (fun u => if empty u then .done (.ok ()) else (useProg deriv).bind fun _ => .done (.ok ())) tasks)
    (freeProg deriv)

/-- `all_pairs_knn` (`implicit/_nearest_neighbours.pyx:138-167`): `update u` is what `progress.update(1)` raises after item `u`.  The
constructors are declared without `except +` (29-39). -/
def allPairsThread (fails : Nat → Bool) (update : Nat → Option Err) (me : Nat) (tasks : List Nat) : NativeProg (Except Err Unit) :=
  (newProg false fails me).andThen fun neighbours =>
  (newProg false fails me).andThen fun topk =>
  tryFinally
    (prangeProg (fun u =>
      (useProg (some neighbours)).bind fun _ => (useProg (some topk)).bind fun _ =>
      match update u with
      | none => .done (.ok ())
      | some e => .done (.error e)) tasks)
    ((freeProg (some neighbours)).bind fun _ => freeProg (some topk))

/-- `NearestNeighboursScorer.recommend` (`implicit/_nearest_neighbours.pyx:71-105`): `body` is the exception raised between `try` and
`return`, if any (such as a `MemoryError` of `np.zeros`). -/
def scorerMemory (fails : Nat → Bool) (me : Nat) (neighbours : MemBlock) (body : Option Err) : NativeProg (Except Err Unit) :=
  (newProg false fails me).andThen fun topK =>
  tryFinally
    ((useProg (some neighbours)).bind fun _ => (useProg (some topK)).bind fun _ =>
      match body with
      | none => .done (.ok ())
      | some e => .done (.error e))
    (freeProg (some topK))

/-- `NearestNeighboursScorer.__cinit__` and, when the object goes away or the constructor raises, `__dealloc__`
(`implicit/_nearest_neighbours.pyx:53-58,107-108`): `views` is what the conversion of the arrays raises. -/
def scorerObject (fails : Nat → Bool) (me : Nat) (views : Option Err) (life : MemBlock → NativeProg (Except Err Unit)) :
    NativeProg (Except Err Unit) :=
  (newProg false fails me).andThen fun neighbours =>
  tryFinally (match views with | some e => .done (.error e) | none => life neighbours) (freeProg (some neighbours))

/-- Calls of `recommend` on a scorer, one after the other, whether they raise or not. -/
def scorerCalls (fails : Nat → Bool) (me : Nat) (neighbours : MemBlock) : List (Option Err) → NativeProg (Except Err Unit)
  | [] => .done (.ok ())
  | body :: rest => (scorerMemory fails me neighbours body).bind fun _ => scorerCalls fails me neighbours rest

/-- A parallel section of `n` threads (`with nogil, parallel(num_threads=num_threads)`). -/
def parallelSection {n : Nat} (s : NativeMem) (threads : Fin n → NativeProg (Except Err Unit)) : Proc NativeMem (Except Err Unit) :=
  ⟨s, List.ofFn threads⟩

/-- What the caller gets after the section: the exception that was kept, if there is one. -/
def NativeMem.outcome (s : NativeMem) : Except Err Unit :=
  match s.why with
  | none => .ok ()
  | some e => .error e

/-! ## Native code of the GPU models -/

/-- `bpr_update` (`implicit/gpu/bpr.cu:72-137`): three allocations and a generator, the kernel, the copy of the counters, and the
release of everything; `curandDestroyGenerator` is not checked. -/
def bprUpdateMemory (fails : Nat → Bool) (me : Nat) : NativeProg (Except Err Unit) :=
  (newProg true fails me).andThen fun stats =>
  (checkedProg fails).andThen fun _ =>
  (newProg true fails me).andThen fun likes =>
  (newProg true fails me).andThen fun dislikes =>
  (newProg true fails me).andThen fun rng =>
  (checkedProg fails).andThen fun _ =>
  (checkedProg fails).andThen fun _ =>
  (checkedProg fails).andThen fun _ =>
  (checkedProg fails).andThen fun _ =>
  (checkedProg fails).andThen fun _ =>
  (useProg (some likes)).bind fun _ => (useProg (some dislikes)).bind fun _ => (useProg (some stats)).bind fun _ =>
  (checkedProg fails).andThen fun _ =>
  (checkedProg fails).andThen fun _ =>
  (checkedProg fails).andThen fun _ => (freeProg (some likes)).bind fun _ =>
  (checkedProg fails).andThen fun _ => (freeProg (some dislikes)).bind fun _ =>
  (checkedProg fails).andThen fun _ => (freeProg (some stats)).bind fun _ =>
  (freeProg (some rng)).bind fun _ => .done (.ok ())

/-- The arrays of a `CSRMatrix` or `COOMatrix`. -/
structure SparseBlocks where
  first : MemBlock
  second : MemBlock
  third : MemBlock

/-- The constructor of `CSRMatrix` (`implicit/gpu/matrix.cu:222-243`): for each array allocation, copy and advice; the pointers are
plain members, so an exception in the constructor frees nothing. -/
def csrConstruct (fails : Nat → Bool) (me : Nat) : NativeProg (Except Err SparseBlocks) :=
  (newProg true fails me).andThen fun indptr => (checkedProg fails).andThen fun _ => (checkedProg fails).andThen fun _ =>
  (newProg true fails me).andThen fun indices => (checkedProg fails).andThen fun _ => (checkedProg fails).andThen fun _ =>
  (newProg true fails me).andThen fun data => (checkedProg fails).andThen fun _ => (checkedProg fails).andThen fun _ =>
  .done (.ok ⟨indptr, indices, data⟩)

/-- The constructor of `COOMatrix` (`implicit/gpu/matrix.cu:251-266`). -/
def cooConstruct (fails : Nat → Bool) (me : Nat) : NativeProg (Except Err SparseBlocks) :=
  (newProg true fails me).andThen fun row => (checkedProg fails).andThen fun _ =>
  (newProg true fails me).andThen fun col => (checkedProg fails).andThen fun _ =>
  (newProg true fails me).andThen fun data => (checkedProg fails).andThen fun _ =>
  .done (.ok ⟨row, col, data⟩)

/-- `CHECK_CUDA(cudaFree(p))` in a destructor, which may not throw: a failure ends the process. -/
def destroyProg (fails : Nat → Bool) (b : MemBlock) : NativeProg Unit :=
  (checkedProg fails).bind fun
    | .ok () => freeProg (some b)
    | .error _ => .write fun s => { s with broken := true }

/-- The destructor of `CSRMatrix` (`implicit/gpu/matrix.cu:245-249`). -/
def csrDestruct (fails : Nat → Bool) (m : SparseBlocks) : NativeProg Unit :=
  (destroyProg fails m.second).bind fun _ => (destroyProg fails m.first).bind fun _ => destroyProg fails m.third

/-- The destructor of `COOMatrix` (`implicit/gpu/matrix.cu:268-272`). -/
def cooDestruct (fails : Nat → Bool) (m : SparseBlocks) : NativeProg Unit :=
  (destroyProg fails m.first).bind fun _ => (destroyProg fails m.second).bind fun _ => destroyProg fails m.third

/-- The Python object around it (`implicit/gpu/_cuda.pyx:221-247`): used by `life`, and destroyed when the last reference is gone,
whether `life` raised or not.  If the constructor raises, the pointer is null and there is nothing to destroy. -/
def sparseObject (construct : NativeProg (Except Err SparseBlocks)) (destruct : SparseBlocks → NativeProg Unit)
    (life : SparseBlocks → NativeProg (Except Err Unit)) : NativeProg (Except Err Unit) :=
  construct.andThen fun m => tryFinally (life m) (destruct m)

/-- `least_squares` (`implicit/gpu/als.cu:153-199`) as far as the memory of the sparse matrix is concerned. -/
def solveWith (fails : Nat → Bool) (m : SparseBlocks) : NativeProg (Except Err Unit) :=
  (useProg (some m.first)).bind fun _ => (useProg (some m.second)).bind fun _ => (useProg (some m.third)).bind fun _ =>
  checkedProg fails

/-- The sweeps of a training run. -/
def solveSweeps (fails : Nat → Bool) (m : SparseBlocks) : Nat → NativeProg (Except Err Unit)
  | 0 => .done (.ok ())
  | n + 1 => (solveWith fails m).andThen fun _ => solveSweeps fails m n

/-- `RandomState` (`implicit/gpu/random.cu:14-17,40`, `implicit/gpu/_cuda.pyx:25-42`): a generator is made and seeded; if seeding
fails, the constructor raises and the destructor is not called. -/
def randomObject (fails : Nat → Bool) (me : Nat) (life : MemBlock → NativeProg (Except Err Unit)) : NativeProg (Except Err Unit) :=
  (newProg true fails me).andThen fun rng =>
  (checkedProg fails).andThen fun _ =>
  tryFinally (life rng) (freeProg (some rng))

/-- `LeastSquaresSolver` (`implicit/gpu/als.cu:118-120,283-285`, `implicit/gpu/_cuda.pyx:250-275`). -/
def solverObject (fails : Nat → Bool) (me : Nat) (life : MemBlock → NativeProg (Except Err Unit)) : NativeProg (Except Err Unit) :=
  (newProg true fails me).andThen fun handle => tryFinally (life handle) (destroyProg fails handle)

end Implicit
