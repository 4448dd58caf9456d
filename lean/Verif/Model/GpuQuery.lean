import Verif.Model.MFBase
import Verif.Model.GpuKnn
/-!
# Queries of the GPU models: `implicit/gpu/matrix_factorization_base.py:34-208`

Device matrices are values (see C46 for when that is right).  Single precision factors.  Ids are natural
numbers below `2^31`; `items` may be any integers.  `N` is a natural number.
-/

namespace Implicit

variable {R : Type} [LinearOrder R] [Field R] {f : Nat}

/-- The device as the query sees it: RAFT's `select_k`, the score given to filtered items
(`FLT_FILTER_DISTANCE`, knn.cu:28-36), the memory limit, and stale memory. -/
structure GpuEnv (R : Type) where
  sel : List R → Nat → List (R × Nat)
  low : R
  maxMem : Nat
  garbage : Nat → R × Nat
  garbageTemp : Nat → R

/-- `KnnQuery.topk` (`implicit/gpu/_cuda.pyx:52-83`): ids and scores per query row. -/
def gpuTopkRows (env : GpuEnv R) (q : GpuQuery f R) (N : Nat) : Except Err (List (List (Nat × R))) := do
  let rows ← gpuTopk env.sel env.low env.maxMem 4 env.garbage env.garbageTemp q N
  pure (rows.map fun row => row.map Prod.swap)

/-- `factors[ids]`: a python integer out of range raises `ValueError` (`implicit/gpu/matrix.cu:34-40`), a list of
ids raises `IndexError` when it is empty or names a row out of range (`implicit/gpu/_cuda.pyx:142-158`). -/
def gpuRows {α : Type} (l : List α) : Ids → Except Err (List α)
  | .one u =>
    match l[u]? with
    | none => .error .valueError
    | some x => .ok [x]
  | .many us => if us.isEmpty then .error .indexError else gather l us

/-- `factors[items]` for an integer array: no negative ids, not empty (`implicit/gpu/_cuda.pyx:142-158`). -/
def gpuSelectRows {α : Type} (l : List α) (items : List Int) : Except Err (List α) :=
  if items.isEmpty then .error .indexError
  else if items.any fun i => decide (i < 0 ∨ (l.length : Int) ≤ i) then .error .indexError
  else gather l (items.map Int.toNat)

/-- `implicit.gpu.IntVector(np.array(filter_items, dtype="int32"))`: an empty array raises `IndexError`
(`&data[0]`, `implicit/gpu/_cuda.pyx:213-214`). -/
def gpuFilterVector (filterItems : Option PyFilter) : Except Err (Option (List Nat)) :=
  match filterItems with
  | none => .ok none
  | some p => if p.ids.isEmpty then .error .indexError else .ok (some p.ids)

/-- `recalculate_user` (`recalculate_item`) of the GPU models: `implicit.gpu.CSRMatrix` of a matrix without
stored entries raises `IndexError` (`&indices[0]`, `implicit/gpu/_cuda.pyx:220-230`); otherwise `solve`. -/
def gpuRecalc (solve : SpRows R → Except Err (List (Vec f R))) (rows : SpRows R) :
    Except Err (List (Vec f R)) :=
  if rows.all List.isEmpty then .error .indexError else solve rows

/-- `implicit/gpu/matrix_factorization_base.py:51-54`. -/
def gpuUserFactor (m : Factors f R) (solve : SpRows R → Except Err (List (Vec f R)))
    (userid : Ids) (userItems : Option (SpRows R)) (recalculate : Bool) : Except Err (List (Vec f R)) :=
  if recalculate then
    match userItems with
    | none => .error .valueError
    | some rows => gpuRecalc solve rows
  else gpuRows m.user userid

/-- `implicit/gpu/matrix_factorization_base.py:56-68`; the range check (67-68) comes after the selection, which
has its own. -/
def gpuRestrict (m : Factors f R) (N : Nat) (filterItems : Option PyFilter)
    (items : Option (List Int)) : Except Err (Nat × List (Vec f R) × Option (List Nat)) :=
  match items with
  | none => .ok (N, m.item, none)
  | some its => do
    let N := min N its.length
    if ← truthyOpt filterItems then throw .valueError
    let its := its.insertionSort (· ≤ ·)
    let fac ← gpuSelectRows m.item its
    checkItems m.item.length its
    pure (N, fac, some (its.map Int.toNat))

/-- `implicit/gpu/matrix_factorization_base.py:73-84`: the query filter as pairs (row, position); nothing when
there is no stored entry. -/
def gpuLiked (filterLiked : Bool) (userItems : Option (SpRows R)) (items : Option (List Nat)) :
    Option (List (Nat × Nat)) :=
  match likedPositions filterLiked userItems items with
  | none => none
  | some rows =>
    let pairs := rows.zipIdx.flatMap fun row => row.1.map fun c => (row.2, c)
    if pairs.isEmpty then none else some pairs

/-- `implicit/gpu/matrix_factorization_base.py:34-101`, `recommend`. -/
def gpuRecommend (env : GpuEnv R) (m : Factors f R)
    (solve : SpRows R → Except Err (List (Vec f R))) (userid : Ids) (userItems : Option (SpRows R)) (N : Nat)
    (filterLiked : Bool) (filterItems : Option PyFilter) (recalculate : Bool) (items : Option (List Int)) :
    Except Err (Answer R) := do
  checkUserItems userid userItems (filterLiked || recalculate)
  let user ← gpuUserFactor m solve userid userItems recalculate
  let (N, fac, its) ← gpuRestrict m N filterItems items
  let fi ← gpuFilterVector filterItems
  let rows ← gpuTopkRows env ⟨fac, user, none, fi, gpuLiked filterLiked userItems its⟩ N
  let rows ← rows.mapM (remapRow its)
  packAnswer userid rows

/-- `implicit/gpu/matrix_factorization_base.py:165-179` (and 126-140): restriction to `items`, keeping the given
order. The norms are looked up by numpy, the factors on the device. -/
def gpuRestrictSimilar (factors : List (Vec f R)) (norms : List R) (filterItems : Option PyFilter)
    (items : Option (List Int)) : Except Err (List (Vec f R) × List R × Option (List Nat)) :=
  match items with
  | none => .ok (factors, norms, none)
  | some its => do
    if ← truthyOpt filterItems then throw .valueError
    let ns ← gatherInt norms its
    let fac ← gpuSelectRows factors its
    checkItems factors.length its
    pure (fac, ns, some (its.map Int.toNat))

/-- `implicit/gpu/matrix_factorization_base.py:186-200` (and 142-158): the scores are divided by the stored norms of
the queried ids. -/
def gpuSimilarWith (env : GpuEnv R) (norms : List R) (ids : Ids) (query : List (Vec f R))
    (fac : List (Vec f R)) (ns : List R) (its : Option (List Nat)) (N : Nat)
    (filterItems : Option PyFilter) : Except Err (Answer R) := do
  let fi ← gpuFilterVector filterItems
  let rows ← gpuTopkRows env ⟨fac, query, some ns, fi, none⟩ N
  let rows ← rows.mapM (remapRow its)
  let qnorms ← gather norms ids.toList
  packAnswer ids (List.zipWith (fun row n => row.map fun p => (p.1, p.2 / n)) rows qnorms)

/-- `implicit/gpu/matrix_factorization_base.py:125-158`, `similar_users`, and 162-200, `similar_items` without
recalculation. `norms` are the cached norms of all rows. -/
def gpuSimilar (env : GpuEnv R) (factors : List (Vec f R)) (norms : List R) (ids : Ids) (N : Nat)
    (filterItems : Option PyFilter) (items : Option (List Int)) : Except Err (Answer R) := do
  let (fac, ns, its) ← gpuRestrictSimilar factors norms filterItems items
  let query ← gpuRows factors ids
  gpuSimilarWith env norms ids query fac ns its N filterItems

/-- `implicit/gpu/matrix_factorization_base.py:162-200`, `similar_items` with `recalculate_item=True`. -/
def gpuSimilarRecalc (env : GpuEnv R) (factors : List (Vec f R)) (norms : List R)
    (solve : SpRows R → Except Err (List (Vec f R))) (itemUsers : SpRows R) (ids : Ids) (N : Nat)
    (filterItems : Option PyFilter) (items : Option (List Int)) : Except Err (Answer R) := do
  let (fac, ns, its) ← gpuRestrictSimilar factors norms filterItems items
  let query ← gpuRecalc solve itemUsers
  gpuSimilarWith env norms ids query fac ns its N filterItems

end Implicit
