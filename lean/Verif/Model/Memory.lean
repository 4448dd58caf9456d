import Verif.Model.Basic
/-!
# Flat native buffers

Native loops write through raw pointers.  A buffer is a list of cells, a write is
`(address, value)`; a write outside the buffer is undefined behaviour.
-/

namespace Implicit

/-- One store.  (Cython `boundscheck(False)` memoryviews and C++ pointers: no check is
performed by the code; an address outside the buffer is undefined behaviour.) -/
def writeCell {β : Type*} (mem : List β) (w : Nat × β) : Except Err (List β) :=
  if w.1 < mem.length then .ok (mem.set w.1 w.2) else .error .undefinedBehaviour

/-- A sequence of stores executed in order. -/
def writeAll {β : Type*} : List β → List (Nat × β) → Except Err (List β)
  | mem, [] => .ok mem
  | mem, w :: ws => do writeAll (← writeCell mem w) ws

end Implicit
