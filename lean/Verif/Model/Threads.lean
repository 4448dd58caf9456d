import Verif.Model.Basic
import Mathlib.Data.List.Basic
/-!
# Threads of one Python process that share a model

The interpreter lock lets one thread run at a time and may pass to another one between any two byte codes; native code that
releases it (`with nogil`) runs at the same time as the others.  A thread is a sequence of steps that are not divided further, and
a schedule says which thread takes the next step.
-/

namespace Implicit

/-- A thread: finished with a value, or about to take a step.  The step waits until `ready`, changes the shared objects by `act`
and continues depending on what it saw. -/
inductive Prog (S α : Type) where
  | done (a : α)
  | step (ready : S → Bool) (act : S → S) (next : S → Prog S α)

namespace Prog

variable {S α β : Type}

/-- `p`, then `k` with its value. -/
def bind : Prog S α → (α → Prog S β) → Prog S β
  | .done a, k => k a
  | .step ready act next, k => .step ready act fun s => (next s).bind k

/-- `p`, then `k` with its value unless `p` raised an exception. -/
def andThen (p : Prog S (Except Err α)) (k : α → Prog S (Except Err β)) : Prog S (Except Err β) :=
  p.bind fun
    | .error e => .done (.error e)
    | .ok a => k a

/-- A step that changes the shared objects and yields a value. -/
def atomic (g : S → S × α) : Prog S α := .step (fun _ => true) (fun s => (g s).1) fun s => .done (g s).2

/-- A step that only reads. -/
def read (g : S → α) : Prog S α := .step (fun _ => true) id fun s => .done (g s)

/-- A step that only writes. -/
def write (u : S → S) : Prog S Unit := .step (fun _ => true) u fun _ => .done ()

/-- A step that waits for a condition, such as a free lock. -/
def await (ready : S → Bool) (u : S → S) : Prog S Unit := .step ready u fun _ => .done ()

/-- Several calls one after the other: the list of their values. -/
def sequence : List (Prog S α) → Prog S (List α)
  | [] => .done []
  | p :: ps => p.bind fun a => (sequence ps).bind fun as => .done (a :: as)

/-- The value of a finished thread. -/
def value? : Prog S α → Option α
  | .done a => some a
  | .step _ _ _ => none

/-- Can the thread take a step? -/
def canRun (s : S) : Prog S α → Bool
  | .done _ => false
  | .step ready _ _ => ready s

/-- The thread running without any other: value and final state, or `none` if it waits for ever. -/
def alone : Prog S α → S → Option (α × S)
  | .done a, s => some (a, s)
  | .step ready act next, s => if ready s then (next s).alone (act s) else none

end Prog

/-- The shared objects and the threads. -/
structure Proc (S α : Type) where
  state : S
  threads : List (Prog S α)

/-- Thread `i` takes its next step, if there is one and it does not have to wait. -/
def Proc.step {S α : Type} (c : Proc S α) (i : Nat) : Proc S α :=
  match c.threads[i]? with
  | some (.step ready act next) =>
    if ready c.state then ⟨act c.state, c.threads.set i (next c.state)⟩ else c
  | _ => c

/-- A schedule: the numbers of the threads in the order of their steps. -/
def Proc.run {S α : Type} (c : Proc S α) (schedule : List Nat) : Proc S α :=
  schedule.foldl Proc.step c

/-- Every thread is finished. -/
def Proc.finished {S α : Type} (c : Proc S α) : Bool := c.threads.all fun p => p.value?.isSome

/-- The value thread `i` has returned, if it is finished. -/
def Proc.result {S α : Type} (c : Proc S α) (i : Nat) : Option α := (c.threads[i]?).bind Prog.value?

end Implicit
