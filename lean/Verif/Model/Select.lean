import Verif.Model.Heap
/-!
# `implicit/cpu/select.h` and the `TopK` functor of `implicit/nearest_neighbours.h`
-/

namespace Implicit

variable {R : Type} [LinearOrder R]

/-- One candidate offered to the heap.  Models the identical bodies
`implicit/cpu/select.h:23-30` and `implicit/nearest_neighbours.h:19-29`
(`TopK::operator()`).  `h` is the vector `results`.  With `k = 0` the code reads
`results[0]` of an empty vector: undefined behaviour. -/
def offer (H : HeapImpl (R × Nat) pairLt) (k : Nat) (h : List (R × Nat)) (c : R × Nat) :
    Except Err (List (R × Nat)) :=
  if h.length < k then
    .ok (H.push h c)
  else
    match h with
    | [] => .error .undefinedBehaviour
    | m :: t => if m.1 < c.1 then .ok (H.push (H.pop (m :: t)) c) else .ok (m :: t)

/-- The candidates offered one after the other. -/
def offerAll (H : HeapImpl (R × Nat) pairLt) (k : Nat) :
    List (R × Nat) → List (R × Nat) → Except Err (List (R × Nat))
  | h, [] => .ok h
  | h, c :: cs => do offerAll H k (← offer H k h c) cs

/-- `implicit/cpu/select.h:19-33`: one row of `select`; `results` after `sort_heap`.
Column indices are `0, 1, ...`. -/
def selectRow (H : HeapImpl (R × Nat) pairLt) (k : Nat) (scores : List R) :
    Except Err (List (R × Nat)) := do
  let h ← offerAll H k [] scores.zipIdx
  pure (H.sort h)

/-- `implicit/cpu/select.h:35-38`: the writes of one row, as
`(slot, (id, score))` with slot relative to the base pointer: slot `row*k + i`
receives result `i`. -/
def rowWrites (k row : Nat) (results : List (R × Nat)) : List (Nat × (Nat × R)) :=
  results.zipIdx.map fun p => (row * k + p.2, (p.1.2, p.1.1))

/-- `implicit/cpu/select.h:12-40`: all rows of a block; `batch` is the block of
scores row by row, the result lists the writes in program order.  (`int`
overflow of `row * cols + col` and `row * k + i` is not modelled here.) -/
def selectBlock (H : HeapImpl (R × Nat) pairLt) (k : Nat) :
    Nat → List (List R) → Except Err (List (Nat × (Nat × R)))
  | _, [] => .ok []
  | row, scores :: batch => do
    let results ← selectRow H k scores
    let rest ← selectBlock H k (row + 1) batch
    pure (rowWrites k row results ++ rest)

end Implicit
