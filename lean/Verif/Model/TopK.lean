import Verif.Model.Select
import Verif.Model.Memory
import Verif.Model.Vec
/-!
# `implicit/cpu/topk.pyx`
-/

namespace Implicit

variable {R : Type} [LinearOrder R] [Field R] {f : Nat}

/-- `implicit/cpu/topk.pyx:47-49`: one row of `query.dot(items.T)`, divided by the item norms when
given.  (numpy would broadcast length-1 arrays; the callers always pass one norm per item.) -/
def scoreRow (items : List (Vec f R)) (norms : Option (List R)) (q : Vec f R) :
    Except Err (List R) :=
  match norms with
  | none => .ok (items.map (dot q))
  | some ns =>
    if ns.length = items.length then .ok (List.zipWith (fun y n => dot q y / n) items ns)
    else .error .valueError

/-- numpy assignment `row[idxs] = v`: raises `IndexError` for an index outside the row. -/
def assignAt {R : Type} (v : R) : List Nat → List R → Except Err (List R)
  | [], row => .ok row
  | i :: is, row => if i < row.length then assignAt v is (row.set i v) else .error .indexError

/-- `implicit/cpu/topk.pyx:51-56`: the scores of query row `idx` after overwriting the positions
stored in row `idx` of `filter_query_items` and those of `filter_items` by the lowest value. -/
def maskedRow (neginf : R) (items : List (Vec f R)) (norms : Option (List R))
    (fq : Option (List (List Nat))) (fi : Option (List Nat)) (idx : Nat) (q : Vec f R) :
    Except Err (List R) := do
  let row ← scoreRow items norms q
  let row ← match fq with
    | none => pure row
    | some rows =>
      match rows[idx]? with
      | none => throw .indexError
      | some liked => assignAt neginf liked row
  match fi with
  | none => pure row
  | some l => assignAt neginf l row

/-- `implicit/cpu/topk.pyx:45-67`, `_topk_batch`: the stores performed for the query rows
`start ..< stop`, with addresses in the whole output buffer (`c_indices + startidx * k`).
`&distances[0, 0]` (58) raises for `k = 0`, `&batch_view[0, 0]` (62) for an empty catalogue. -/
def topkBatch (H : HeapImpl (R × Nat) pairLt) (neginf : R) (items query : List (Vec f R)) (k : Nat)
    (norms : Option (List R)) (fq : Option (List (List Nat))) (fi : Option (List Nat))
    (start stop : Nat) : Except Err (List (Nat × (Nat × R))) := do
  let rows ← ((query.drop start).take (stop - start)).zipIdx.mapM fun p =>
    maskedRow neginf items norms fq fi (start + p.2) p.1
  if k = 0 then throw .indexError
  if items.length = 0 then throw .indexError
  let ws ← selectBlock H k 0 rows
  pure (ws.map fun w => (start * k + w.1, w.2))

/-- `implicit/cpu/topk.pyx:24`. -/
def topkBatchSize : Nat := 100

/-- `implicit/cpu/topk.pyx:26-28`. -/
def numBatches (rows : Nat) : Nat :=
  rows / topkBatchSize + if rows % topkBatchSize ≠ 0 then 1 else 0

/-- The stores of every batch, in batch order (`implicit/cpu/topk.pyx:31-41`). -/
def topkBatches (H : HeapImpl (R × Nat) pairLt) (neginf : R) (items query : List (Vec f R)) (k : Nat)
    (norms : Option (List R)) (fq : Option (List (List Nat))) (fi : Option (List Nat)) :
    Except Err (List (List (Nat × (Nat × R)))) :=
  let rows := query.length
  if numBatches rows = 1 then do
    pure [← topkBatch H neginf items query k norms fq fi 0 rows]
  else
    (List.range (numBatches rows)).mapM fun b =>
      let start := b * topkBatchSize
      let stop := min (start + topkBatchSize) rows
      topkBatch H neginf items query k norms fq fi start stop

/-- The zero-initialised output arrays `indices`, `distances` (`implicit/cpu/topk.pyx:20-21`). -/
def topkInit (rows k : Nat) : List (Nat × R) := List.replicate (rows * k) (0, 0)

/-- `implicit/cpu/topk.pyx:15-43`, `topk`, run with the batches in order: final contents of the
flat output buffer of `(id, score)` cells. -/
def topkFlat (H : HeapImpl (R × Nat) pairLt) (neginf : R) (items query : List (Vec f R)) (k : Nat)
    (norms : Option (List R)) (fq : Option (List (List Nat))) (fi : Option (List Nat)) :
    Except Err (List (Nat × R)) := do
  let ws ← topkBatches H neginf items query k norms fq fi
  writeAll (topkInit query.length k) ws.flatten

/-- The `(rows, k)` view of the flat buffer. -/
def rowsOf {β : Type*} (rows k : Nat) (mem : List β) : List (List β) :=
  (List.range rows).map fun r => (mem.drop (r * k)).take k

/-- `topk`, returning the answer row by row. -/
def topk (H : HeapImpl (R × Nat) pairLt) (neginf : R) (items query : List (Vec f R)) (k : Nat)
    (norms : Option (List R)) (fq : Option (List (List Nat))) (fi : Option (List Nat)) :
    Except Err (List (List (Nat × R))) := do
  let mem ← topkFlat H neginf items query k norms fq fi
  pure (rowsOf query.length k mem)

end Implicit
