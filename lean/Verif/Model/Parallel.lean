import Mathlib.Data.Set.Basic
import Mathlib.Logic.Function.Basic
/-!
# Parallel loops (`prange`)

A parallel loop runs tasks on threads.  Every thread has private scratch memory (the buffers
`malloc`ed inside `parallel()`), which survives from one of its tasks to the next; all threads share
one memory.  A task is a list of elementary instructions.  An execution is *any* interleaving of the
instruction streams of the threads; the stream of a thread is the concatenation of the programs of
the tasks it was given, in any assignment and order.
-/

namespace Implicit

/-- `act i s m`: effect of instruction `i` on the scratch memory of its thread and the shared
memory. -/
abbrev Act (I Sc Addr V : Type) := I → Sc → (Addr → V) → Sc × (Addr → V)

variable {I Sc Addr V Th : Type}

/-- Run an instruction stream alone. -/
def runInstrs (act : Act I Sc Addr V) : List I → Sc → (Addr → V) → Sc × (Addr → V)
  | [], s, m => (s, m)
  | i :: is, s, m => runInstrs act is (act i s m).1 (act i s m).2

/-- Run an interleaving: a list of (thread, instruction). -/
def execInterleaved [DecidableEq Th] (act : Act I Sc Addr V) :
    List (Th × I) → (Th → Sc) → (Addr → V) → (Th → Sc) × (Addr → V)
  | [], σ, m => (σ, m)
  | (t, i) :: w, σ, m =>
    execInterleaved act w (Function.update σ t (act i (σ t) m).1) (act i (σ t) m).2

/-- The instructions of one thread in an interleaving, in order. -/
def streamOf [DecidableEq Th] (t : Th) (w : List (Th × I)) : List I :=
  (w.filter fun p => p.1 = t).map Prod.snd

/-- `w` interleaves the streams of threads that were given the task queues `queue`. -/
def IsSchedule [DecidableEq Th] {T : Type} (prog : T → List I) (queue : Th → List T)
    (w : List (Th × I)) : Prop :=
  ∀ t, streamOf t w = (queue t).flatMap prog

/-- The iterations `0..n-1` of a `prange(n)` are distributed over the threads: each is in exactly one
queue, once. -/
structure Assignment (n : Nat) (queue : Th → List Nat) : Prop where
  nodup : ∀ t, (queue t).Nodup
  disjoint : ∀ t t', t ≠ t' → ∀ u ∈ queue t, u ∉ queue t'
  covers : ∀ u, u < n ↔ ∃ t, u ∈ queue t

end Implicit
