import Verif.Model.TopK
import Mathlib.Data.List.Sort
/-!
# `implicit/cpu/matrix_factorization_base.py`
-/

namespace Implicit

/-- A scalar id or an array of ids (`np.isscalar(userid)`). -/
inductive Ids where
  | one (u : Nat)
  | many (us : List Nat)
deriving DecidableEq, Repr

/-- `1 if np.isscalar(userid) else len(userid)`
(`implicit/cpu/matrix_factorization_base.py:47`). -/
def Ids.count : Ids → Nat
  | .one _ => 1
  | .many us => us.length

/-- The ids as a list (a scalar query is reshaped to one row, `implicit/cpu/topk.pyx:16-17`). -/
def Ids.toList : Ids → List Nat
  | .one u => [u]
  | .many us => us

/-- One answer row for a scalar query, one row per id otherwise. -/
inductive Answer (R : Type) where
  | one (row : List (Nat × R))
  | many (rows : List (List (Nat × R)))
deriving DecidableEq, Repr

/-- The stored entries of a CSR matrix row by row: `(column, value)`, explicit zeros allowed
(`implicit/utils.py:9-12`, `nonzeros`). -/
abbrev SpRows (R : Type) := List (List (Nat × R))

/-- The python objects passed as `filter_items`: a list or a numpy array. -/
inductive PyFilter where
  | list (l : List Nat)
  | array (l : List Nat)
deriving DecidableEq, Repr

def PyFilter.ids : PyFilter → List Nat
  | .list l => l
  | .array l => l

/-- Python truth value, as used in `if filter_items:`.  A numpy array with more than one element
raises `ValueError`, with one element it is the truth value of the element. -/
def PyFilter.truthy : PyFilter → Except Err Bool
  | .list l => .ok (!l.isEmpty)
  | .array [] => .ok false
  | .array [x] => .ok (x != 0)
  | .array _ => .error .valueError

/-- `if filter_items:` where `filter_items` may be `None`. -/
def truthyOpt : Option PyFilter → Except Err Bool
  | none => .ok false
  | some p => p.truthy

/-- `factors[ids]` for non-negative ids. -/
def gather {α : Type*} (l : List α) : List Nat → Except Err (List α)
  | [] => .ok []
  | i :: is =>
    match l[i]? with
    | none => .error .indexError
    | some x => do pure (x :: (← gather l is))

/-- numpy indexing by one possibly negative integer: negative values count from the end. -/
def pyIndex {α : Type*} (l : List α) (i : Int) : Except Err α :=
  let j := if i < 0 then i + l.length else i
  if j < 0 then .error .indexError
  else match l[j.toNat]? with
    | none => .error .indexError
    | some x => .ok x

/-- `factors[items]` for an integer array `items`. -/
def gatherInt {α : Type*} (l : List α) : List Int → Except Err (List α)
  | [] => .ok []
  | i :: is => do
    let x ← pyIndex l i
    pure (x :: (← gatherInt l is))

variable {R : Type} [LinearOrder R] [Field R] {f : Nat}

/-- Learned factors (`implicit/cpu/matrix_factorization_base.py:27-28`). -/
structure Factors (f : Nat) (R : Type) where
  user : List (Vec f R)
  item : List (Vec f R)

/-- `np.searchsorted(items, col)` for a sorted array: the number of entries smaller than `col`
(left insertion point). -/
def searchsorted (items : List Nat) (col : Nat) : Nat := items.countP (· < col)

/-- `implicit/cpu/matrix_factorization_base.py:255-266`, `_filter_items_from_sparse_matrix`, one
row: entries are moved to the position of their column in the sorted `items`; the value of an entry
whose column is not in `items` is set to zero and all zero entries are eliminated.  (`tocsr` may
merge entries at equal positions, which does not change the set of positions used afterwards.) -/
def filterItemsRow (items : List Nat) (row : List (Nat × R)) : List (Nat × R) :=
  (row.map fun e =>
    let position := min (searchsorted items e.1) (items.length - 1)
    if items[position]? = some e.1 then (position, e.2) else (position, 0)).filter fun e => e.2 ≠ 0

/-- `implicit/cpu/matrix_factorization_base.py:44-49`: argument checks of `recommend`. -/
def checkUserItems (userid : Ids) (userItems : Option (SpRows R)) (needed : Bool) :
    Except Err Unit :=
  if needed then
    match userItems with
    | none => .error .valueError
    | some rows => if rows.length = userid.count then .ok () else .error .valueError
  else .ok ()

/-- `implicit/cpu/matrix_factorization_base.py:132-135`, `_user_factor`; `recalc` stands for the
model's `recalculate_user` (142-143 raises `NotImplementedError`; ALS overrides it). -/
def userFactor (m : Factors f R) (recalc : SpRows R → Except Err (List (Vec f R)))
    (userid : Ids) (userItems : Option (SpRows R)) (recalculate : Bool) :
    Except Err (List (Vec f R)) :=
  if recalculate then
    match userItems with
    | none => .error .valueError
    | some rows => recalc rows
  else gather m.user userid.toList

/-- `recalculate_user` of the base class (`implicit/cpu/matrix_factorization_base.py:142-143`). -/
def noRecalc : SpRows R → Except Err (List (Vec f R)) := fun _ => .error .notImplemented

/-- `items.max() >= rows or items.min() < 0` (67): `max` of an empty array raises `ValueError`. -/
def checkItems (rows : Nat) (items : List Int) : Except Err Unit :=
  if items.isEmpty then .error .valueError
  else if items.any (fun i => decide ((rows : Int) ≤ i)) || items.any (fun i => decide (i < 0)) then
    .error .indexError
  else .ok ()

/-- `implicit/cpu/matrix_factorization_base.py:55-68`: effective `N`, the candidate factors and the
sorted restriction list. -/
def restrictItems (m : Factors f R) (N : Nat) (filterItems : Option PyFilter)
    (items : Option (List Int)) : Except Err (Nat × List (Vec f R) × Option (List Nat)) :=
  match items with
  | none => .ok (N, m.item, none)
  | some its => do
    let N := min N its.length
    if ← truthyOpt filterItems then throw .valueError
    let its := its.insertionSort (· ≤ ·)
    let fac ← gatherInt m.item its
    checkItems m.item.length its
    pure (N, fac, some (its.map Int.toNat))

/-- `implicit/cpu/matrix_factorization_base.py:71-77`: the positions to filter for each query row. -/
def likedPositions (filterLiked : Bool) (userItems : Option (SpRows R))
    (items : Option (List Nat)) : Option (List (List Nat)) :=
  if filterLiked then
    userItems.map fun rows =>
      match items with
      | none => rows.map fun r => r.map Prod.fst
      | some its => rows.map fun r => (filterItemsRow its r).map Prod.fst
  else none

/-- `ids = items[ids]` (93) on one answer row. -/
def remapRow (items : Option (List Nat)) (row : List (Nat × R)) : Except Err (List (Nat × R)) :=
  match items with
  | none => .ok row
  | some its => row.mapM fun p =>
      match its[p.1]? with
      | none => .error .indexError
      | some i => .ok (i, p.2)

/-- `implicit/cpu/matrix_factorization_base.py:88-95`: scalar queries take row 0. -/
def packAnswer (userid : Ids) (rows : List (List (Nat × R))) : Except Err (Answer R) :=
  match userid with
  | .one _ =>
    match rows with
    | [] => .error .indexError
    | row :: _ => .ok (.one row)
  | .many _ => .ok (.many rows)

/-- `implicit/cpu/matrix_factorization_base.py:34-95`, `MatrixFactorizationBase.recommend`.
`neginf` is `-np.finfo(dtype).max`. -/
def recommend (H : HeapImpl (R × Nat) pairLt) (neginf : R) (m : Factors f R)
    (recalc : SpRows R → Except Err (List (Vec f R)))
    (userid : Ids) (userItems : Option (SpRows R)) (N : Nat) (filterLiked : Bool)
    (filterItems : Option PyFilter) (recalculate : Bool) (items : Option (List Int)) :
    Except Err (Answer R) := do
  checkUserItems userid userItems (filterLiked || recalculate)
  let user ← userFactor m recalc userid userItems recalculate
  let (N, fac, its) ← restrictItems m N filterItems items
  let rows ← topk H neginf fac user N none (likedPositions filterLiked userItems its)
    (filterItems.map PyFilter.ids)
  let rows ← rows.mapM (remapRow its)
  packAnswer userid rows

/-- Norms with zeros replaced by a small value
(`implicit/cpu/matrix_factorization_base.py:232-246`). -/
def safeNorms (norm : Vec f R → R) (eps : R) (factors : List (Vec f R)) : List R :=
  factors.map fun v => if norm v = 0 then eps else norm v

/-- `implicit/cpu/matrix_factorization_base.py:216-230`, `_get_similarity_score`: `topk` with item
norms, then division by the norm of the query. -/
def similarityScore (H : HeapImpl (R × Nat) pairLt) (neginf : R) (query : List (Vec f R))
    (qnorms : List R) (factors : List (Vec f R)) (norms : List R) (N : Nat)
    (filterItems : Option PyFilter) : Except Err (List (List (Nat × R))) := do
  let rows ← topk H neginf factors query N (some norms) none (filterItems.map PyFilter.ids)
  pure (List.zipWith (fun row n => row.map fun p => (p.1, p.2 / n)) rows qnorms)

/-- `implicit/cpu/matrix_factorization_base.py:194-205` (and 153-164): restriction to `items`,
keeping the given order. -/
def restrictSimilar (factors : List (Vec f R)) (norms : List R) (filterItems : Option PyFilter)
    (items : Option (List Int)) : Except Err (List (Vec f R) × List R × Option (List Nat)) :=
  match items with
  | none => .ok (factors, norms, none)
  | some its => do
    if ← truthyOpt filterItems then throw .valueError
    let fac ← gatherInt factors its
    let ns ← gatherInt norms its
    checkItems factors.length its
    pure (fac, ns, some (its.map Int.toNat))

/-- `implicit/cpu/matrix_factorization_base.py:194-212` (and 153-173): the part of `similar_items` /
`similar_users` after the query factors and their norms are known.  `factors` and `norms` are those of
the model (`norms` comes from the cache). -/
def similarWith (H : HeapImpl (R × Nat) pairLt) (neginf : R) (factors : List (Vec f R))
    (norms : List R) (ids : Ids) (query : List (Vec f R)) (qnorms : List R) (N : Nat)
    (filterItems : Option PyFilter) (items : Option (List Int)) : Except Err (Answer R) := do
  let (fac, ns, its) ← restrictSimilar factors norms filterItems items
  let rows ← similarityScore H neginf query qnorms fac ns N filterItems
  let rows ← rows.mapM (remapRow its)
  packAnswer ids rows

/-- `implicit/cpu/matrix_factorization_base.py:148-212`, `similar_users` and `similar_items` (with
`recalculate_item=False`). -/
def similar (H : HeapImpl (R × Nat) pairLt) (neginf : R) (factors : List (Vec f R))
    (norms : List R) (ids : Ids) (N : Nat) (filterItems : Option PyFilter)
    (items : Option (List Int)) : Except Err (Answer R) := do
  let query ← gather factors ids.toList
  let qnorms ← gather norms ids.toList
  similarWith H neginf factors norms ids query qnorms N filterItems items

/-- `implicit/cpu/matrix_factorization_base.py:177-212`, `similar_items` with
`recalculate_item=True`: the query factors come from the model's `recalculate_item` and their norms
are computed on the spot (185-190). -/
def similarRecalc (H : HeapImpl (R × Nat) pairLt) (neginf : R) (norm : Vec f R → R) (eps : R)
    (factors : List (Vec f R)) (norms : List R)
    (recalc : SpRows R → Except Err (List (Vec f R))) (itemUsers : SpRows R) (ids : Ids) (N : Nat)
    (filterItems : Option PyFilter) (items : Option (List Int)) : Except Err (Answer R) := do
  let query ← recalc itemUsers
  similarWith H neginf factors norms ids query (safeNorms norm eps query) N filterItems items

/-- `implicit/cpu/matrix_factorization_base.py:97-128`, `recommend_all`: `userids` counts up from the
offset; with a non-zero offset the interaction matrix is preceded by `offset` empty rows (a
`lil_matrix` assignment, converted to CSR).  Only the ids are returned. -/
def recommendAll (H : HeapImpl (R × Nat) pairLt) (neginf : R) (m : Factors f R)
    (recalc : SpRows R → Except Err (List (Vec f R))) (userItems : SpRows R) (N : Nat)
    (recalculate filterLiked : Bool) (filterItems : Option PyFilter) (offset : Nat) :
    Except Err (List (List Nat)) := do
  let userids := (List.range userItems.length).map fun r => r + offset
  let adjusted := if offset ≠ 0 then List.replicate offset [] ++ userItems else userItems
  match ← recommend H neginf m recalc (.many userids) (some adjusted) N filterLiked filterItems
      recalculate none with
  | .one row => pure [row.map Prod.fst]
  | .many rows => pure (rows.map fun row => row.map Prod.fst)

end Implicit
