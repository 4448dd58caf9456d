import Verif.Model.Threads
/-!
# Calls under a lock of the application

What an application can do about a model that is shared by threads: one `threading.Lock`, taken around every call
(`with lock: model.method(...)`).  This is not code of the library; it is the context in which its methods are called.
-/

namespace Implicit

/-- The lock (the number of the thread that holds it) and the shared objects. -/
structure Locked (S : Type) where
  lock : Option Nat
  data : S

namespace Prog

variable {S α : Type}

/-- The same steps on the objects beside the lock. -/
def beside : Prog S α → Prog (Locked S) α
  | .done a => .done a
  | .step ready act next => .step (fun s => ready s.data) (fun s => { s with data := act s.data }) fun s => (next s.data).beside

/-- `with lock: p` in thread `i`: wait for the lock, run `p`, release the lock; also when `p` raises (exceptions are values). -/
def withLock (i : Nat) (p : Prog S α) : Prog (Locked S) α :=
  (await (fun s => s.lock.isNone) fun s => { s with lock := some i }).bind fun _ =>
  p.beside.bind fun a =>
  (write fun s => { s with lock := none }).bind fun _ => .done a

end Prog

/-- Threads that make the given calls one after the other, each under the lock. -/
def lockedProcess {S C α : Type} (prog : C → Prog S α) (s : S) (threads : List (List C)) : Proc (Locked S) (List α) :=
  ⟨⟨none, s⟩, threads.zipIdx.map fun x => Prog.sequence (x.1.map fun c => (prog c).withLock x.2)⟩

end Implicit
