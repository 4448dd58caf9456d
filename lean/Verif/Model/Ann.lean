import Verif.Model.ALSState
/-!
# Approximate models: `implicit/ann/*.py` and the helpers of `implicit/utils.py`

The index libraries (annoy, nmslib, faiss) are parameters: `search q n` is whatever the index answers
when asked for the `n` best entries, as `(id, distance-or-score)` pairs; ids are integers because faiss
answers `-1` for missing results.  Indexes are built by `fit` from copies of the factors and never
changed by queries.  The wrapped model is a CPU model of type `MFState`.
-/

namespace Implicit

variable {R : Type}

/-! ## `implicit/utils.py` -/

/-- `implicit/utils.py:125-134`: a result padded with `-1` / the lowest score and cut to `N`. -/
def batchRow (lowest : R) (N : Nat) (row : List (Int × R)) : List (Int × R) :=
  (row ++ List.replicate (N - row.length) (-1, lowest)).take N

/-- `implicit/utils.py:117-121`: row `i` of the sparse matrix, if there is one. -/
def batchArg (rows : Option (SpRows R)) (i : Nat) : Except Err (Option (SpRows R)) :=
  match rows with
  | none => .ok none
  | some rs =>
    match rs[i]? with
    | none => .error .indexError
    | some r => .ok (some [r])

/-- `implicit/utils.py:106-136`, `_batch_call`: one call of `func` per id, in order; call `i` gets row
`i` of the sparse matrix when there is one.  `lowest` is `-np.finfo(np.float32).max`.  `σ` is the state of
the model `func` belongs to. -/
def batchCall {σ : Type} (lowest : R) (N : Nat)
    (func : σ → Nat → Option (SpRows R) → Except Err (List (Int × R)) × σ)
    (rows : Option (SpRows R)) : Nat → List Nat → σ → Except Err (List (List (Int × R))) × σ
  | _, [], s => (.ok [], s)
  | i, id :: ids, s =>
    match batchArg rows i with
    | .error e => (.error e, s)
    | .ok a =>
      match func s id a with
      | (.error e, s) => (.error e, s)
      | (.ok out, s) =>
        match batchCall lowest N func rows (i + 1) ids s with
        | (.error e, s) => (.error e, s)
        | (.ok rest, s) => (.ok (batchRow lowest N out :: rest), s)

/-- `implicit/utils.py:140-142`: `_filter_items_from_results` for a scalar query. -/
def filterResults (ids : List Nat) (N : Nat) (row : List (Int × R)) : List (Int × R) :=
  (row.filter fun p => !(ids.map Int.ofNat).contains p.1).take N

/-- numpy assignment of a row to a row of `N` cells (`implicit/utils.py:148-149`): equal lengths, or a
single value which is broadcast. -/
def broadcastRow (N : Nat) (row : List (Int × R)) : Except Err (List (Int × R)) :=
  if row.length = N then .ok row
  else match row with
    | [p] => .ok (List.replicate N p)
    | _ => .error .valueError

/-- `implicit/utils.py:143-151`: `_filter_items_from_results` for a batch query. -/
def filterResultsBatch (ids : List Nat) (N : Nat) :
    List (List (Int × R)) → Except Err (List (List (Int × R)))
  | [] => .ok []
  | row :: rows => do
    let r ← broadcastRow N (filterResults ids N row)
    pure (r :: (← filterResultsBatch ids N rows))

/-- Answer of an approximate model. -/
inductive AnnAnswer (R : Type) where
  | one (row : List (Int × R))
  | many (rows : List (List (Int × R)))
deriving DecidableEq, Repr

/-- Ids of an exact answer as integers. -/
def intRow (row : List (Nat × R)) : List (Int × R) := row.map fun p => ((p.1 : Int), p.2)

/-- The wrapped model's answer passed on. -/
def AnnAnswer.ofAnswer : Answer R → AnnAnswer R
  | .one row => .one (intRow row)
  | .many rows => .many (rows.map intRow)

variable [LinearOrder R] [Field R] {f : Nat}

/-- `return self.model.…(…)`. -/
def delegate (env : Env f R) (st : MFState f R) (q : Query f R) :
    Except Err (AnnAnswer R) × MFState f R :=
  match runQuery env st q with
  | (.ok (.answer a), st) => (.ok (AnnAnswer.ofAnswer a), st)
  | (.ok _, st) => (.error .typeError, st)
  | (.error e, st) => (.error e, st)

/-- The query delegated by `similar_items`; `recalculate_item=True` without `item_users` fails in
`recalculate_item` (`None` has no `tocsr`, `implicit/utils.py:159-169`). -/
def delegateSimilar (env : Env f R) (st : MFState f R) (ids : Ids) (N : Nat) (recalculate : Bool)
    (itemUsers : Option (SpRows R)) (filterItems : Option PyFilter) (items : Option (List Int)) :
    Except Err (AnnAnswer R) × MFState f R :=
  if recalculate then
    match itemUsers with
    | none => (.error .attributeError, st)
    | some rows => delegate env st (.similarItemsRecalc ids rows N filterItems items)
  else delegate env st (.similarItems ids N filterItems items)

/-- `self.model._item_factor(itemid, item_users, recalculate_item)`
(`implicit/cpu/matrix_factorization_base.py:137-140`). -/
def annItemFactors (env : Env f R) (st : MFState f R) (ids : Ids) (recalculate : Bool)
    (itemUsers : Option (SpRows R)) : Except Err (List (Vec f R)) × MFState f R :=
  if recalculate then
    match itemUsers with
    | none => (.error .attributeError, st)
    | some rows => recalculateItem env st ids rows
  else (gather st.item ids.toList, st)

/-- `implicit/ann/annoy.py:206-218` (same lines in nmslib 214-226, faiss 237-249): how many results to
ask the index for, and the ids to remove from them. -/
def annPlan (N : Nat) (filterItems : Option PyFilter) (likes : Option (List Nat)) :
    Except Err (Nat × Option (List Nat)) := do
  let t ← truthyOpt filterItems
  let count := if t then N + ((filterItems.map fun p => p.ids.length).getD 0) else N
  match likes with
  | none => pure (count, filterItems.map PyFilter.ids)
  | some l => pure (count + l.length, some ((filterItems.map PyFilter.ids).getD [] ++ l))

/-- `user_items[0].indices` if already liked items are to be filtered. -/
def annLikes (filterLiked : Bool) (userItems : Option (SpRows R)) :
    Except Err (Option (List Nat)) :=
  if filterLiked then
    match userItems with
    | some (row :: _) => .ok (some (row.map Prod.fst))
    | _ => .error .indexError
  else .ok none

/-- Apply the filter if there is one. -/
def annFilter (filter : Option (List Nat)) (N : Nat) (row : List (Int × R)) : List (Int × R) :=
  match filter with
  | none => row
  | some ids => filterResults ids N row

/-- `np.append(user, 0)`. -/
def appendZero (q : Vec f R) : Vec (f + 1) R := Fin.snoc q 0

/-- The part of `recommend` for one user that Annoy and NMSLib share (`implicit/ann/annoy.py:193-227`,
`implicit/ann/nmslib.py:201-235`): `hasattr(self.model, "+_user_factor")` is always false, so
recalculation raises.  `score` converts what the index answers into a score, given
`scaling = self.max_norm * np.linalg.norm(query)`. -/
def annRecommendOne (search : Vec (f + 1) R → Nat → List (Int × R)) (norm : Vec (f + 1) R → R)
    (maxNorm : R) (score : R → R → R) (st : MFState f R) (userid : Nat)
    (userItems : Option (SpRows R)) (N : Nat) (filterLiked : Bool) (filterItems : Option PyFilter)
    (recalculate : Bool) : Except Err (List (Int × R)) := do
  if recalculate then throw Err.notImplemented
  match st.user[userid]? with
  | none => throw Err.indexError
  | some user => do
    let likes ← annLikes filterLiked userItems
    let (count, filter) ← annPlan N filterItems likes
    let query := appendZero user
    let row := annFilter filter N (search query count)
    pure (row.map fun p => (p.1, score (maxNorm * norm query) p.2))

/-- Score from Annoy's angular distance (`implicit/ann/annoy.py:230-232`). -/
def annoyScore (scaling d : R) : R := scaling * (1 - d ^ 2 / 2)

/-- Score from NMSLib's cosine distance (`implicit/ann/nmslib.py:230-231`). -/
def nmslibScore (scaling d : R) : R := scaling * (1 - d)

/-- The call `_batch_call` makes for one user; without `user_items` a required argument is missing. -/
def annRecommendRow (search : Vec (f + 1) R → Nat → List (Int × R)) (norm : Vec (f + 1) R → R)
    (maxNorm : R) (score : R → R → R) (N : Nat) (filterLiked : Bool) (filterItems : Option PyFilter)
    (recalculate : Bool) (st : MFState f R) (userid : Nat) (rows : Option (SpRows R)) :
    Except Err (List (Int × R)) × MFState f R :=
  match rows with
  | none => (.error .typeError, st)
  | some rows =>
    (annRecommendOne search norm maxNorm score st userid (some rows) N filterLiked filterItems
      recalculate, st)

/-- `recommend` of Annoy (`implicit/ann/annoy.py:151-233`) and NMSLib (`implicit/ann/nmslib.py:159-237`).
In batch mode `_batch_call` omits `user_items` if it is `None`, but `recommend` requires it. -/
def annRecommend (env : Env f R) (search : Vec (f + 1) R → Nat → List (Int × R))
    (norm : Vec (f + 1) R → R) (maxNorm : R) (score : R → R → R) (approximate : Bool)
    (st : MFState f R) (ids : Ids) (userItems : Option (SpRows R)) (N : Nat) (filterLiked : Bool)
    (filterItems : Option PyFilter) (recalculate : Bool) (items : Option (List Int)) :
    Except Err (AnnAnswer R) × MFState f R :=
  if (filterLiked || recalculate) && userItems.isNone then (.error .valueError, st)
  else if items.isSome && approximate then (.error .notImplemented, st)
  else if !approximate then
    delegate env st (.recommend ids userItems N filterLiked filterItems recalculate items)
  else
    match ids with
    | .one u =>
      ((annRecommendOne search norm maxNorm score st u userItems N filterLiked filterItems
        recalculate).map .one, st)
    | .many us =>
      let r := batchCall env.neginf N
        (annRecommendRow search norm maxNorm score N filterLiked filterItems recalculate) userItems 0 us
        st
      (r.1.map .many, r.2)

/-- `implicit/ann/annoy.py:126-149`: Annoy `similar_items` for one item.  `count` is computed in 102-104
but the index is asked for `N` results (142-144). -/
def annoySimilarOne (env : Env f R) (search : Vec f R → Nat → List (Int × R)) (st : MFState f R)
    (itemid : Nat) (N : Nat) (recalculate : Bool) (itemUsers : Option (SpRows R))
    (filterItems : Option PyFilter) : Except Err (List (Int × R)) × MFState f R :=
  match annItemFactors env st (.one itemid) recalculate itemUsers with
  | (.error e, st) => (.error e, st)
  | (.ok [], st) => (.error .indexError, st)
  | (.ok (factor :: _), st) =>
    (.ok ((annFilter (filterItems.map PyFilter.ids) N (search factor N)).map
      fun p => (p.1, 1 - p.2 ^ 2 / 2)), st)

/-- `implicit/ann/annoy.py:95-149`, `similar_items`. -/
def annoySimilar (env : Env f R) (search : Vec f R → Nat → List (Int × R)) (approximate : Bool)
    (st : MFState f R) (ids : Ids) (N : Nat) (recalculate : Bool) (itemUsers : Option (SpRows R))
    (filterItems : Option PyFilter) (items : Option (List Int)) :
    Except Err (AnnAnswer R) × MFState f R :=
  if items.isSome && approximate then (.error .notImplemented, st)
  else if !approximate then
    delegateSimilar env st ids N recalculate itemUsers filterItems items
  else
    match ids with
    | .one i =>
      let r := annoySimilarOne env search st i N recalculate itemUsers filterItems
      (r.1.map .one, r.2)
    | .many is =>
      let r := batchCall env.neginf N
        (fun st i rows => annoySimilarOne env search st i N recalculate rows filterItems)
        itemUsers 0 is st
      (r.1.map .many, r.2)

/-- `np.stack` needs at least one array and equal lengths. -/
def stackRows (rows : List (List (Int × R))) : Except Err (List (List (Int × R))) :=
  match rows with
  | [] => .error .valueError
  | r :: rs => if rs.all (fun r' => r'.length == r.length) then .ok (r :: rs) else .error .valueError

/-- Apply the filter to a batch if there is one. -/
def annFilterBatch (filter : Option (List Nat)) (N : Nat) (rows : List (List (Int × R))) :
    Except Err (List (List (Int × R))) :=
  match filter with
  | none => .ok rows
  | some ids => filterResultsBatch ids N rows

/-- `count = N; if filter_items is not None: count += len(filter_items)`. -/
def annCount (N : Nat) (filterItems : Option PyFilter) : Nat :=
  N + ((filterItems.map fun p => p.ids.length).getD 0)

/-- `implicit/ann/nmslib.py:114-157`, `similar_items`. -/
def nmslibSimilar (env : Env f R) (search : Vec f R → Nat → List (Int × R)) (approximate : Bool)
    (st : MFState f R) (ids : Ids) (N : Nat) (recalculate : Bool) (itemUsers : Option (SpRows R))
    (filterItems : Option PyFilter) (items : Option (List Int)) :
    Except Err (AnnAnswer R) × MFState f R :=
  if !approximate then
    delegateSimilar env st ids N recalculate itemUsers filterItems items
  else if items.isSome then (.error .notImplemented, st)
  else
    match annItemFactors env st ids recalculate itemUsers with
    | (.error e, st) => (.error e, st)
    | (.ok factors, st) =>
      let convert := fun row : List (Int × R) => row.map fun p => (p.1, 1 - p.2)
      let filter := filterItems.map PyFilter.ids
      match ids with
      | .one _ =>
        match factors with
        | [] => (.error .indexError, st)
        | q :: _ =>
          (.ok (.one (annFilter filter N (convert (search q (annCount N filterItems))))), st)
      | .many _ =>
        ((do
          let rows ← stackRows (factors.map fun q => search q (annCount N filterItems))
          return AnnAnswer.many (← annFilterBatch filter N (rows.map convert))), st)

/-- `factors / np.linalg.norm(factors)`.  (The code divides a zero factor by zero and gets NaN; in the
model the quotient is 0.  The theorems using this speak about non-zero factors.) -/
def normalizeVec (norm : Vec f R → R) (v : Vec f R) : Vec f R := fun j => v j / norm v

/-- `implicit/ann/faiss.py:132-178`, `similar_items`.  For a scalar id without recalculation
`_item_factor` returns a *view* of the row of `item_factors`, and `factors /= ...` (165) writes through
it; for an array of ids numpy makes a copy. -/
def faissSimilar (env : Env f R) (search : Vec f R → Nat → List (Int × R)) (approximate useGpu : Bool)
    (st : MFState f R) (ids : Ids) (N : Nat) (recalculate : Bool) (itemUsers : Option (SpRows R))
    (filterItems : Option PyFilter) (items : Option (List Int)) :
    Except Err (AnnAnswer R) × MFState f R :=
  if items.isSome && approximate then (.error .notImplemented, st)
  else if !approximate || (useGpu && decide (1024 ≤ annCount N filterItems)) then
    delegateSimilar env st ids N recalculate itemUsers filterItems items
  else
    match annItemFactors env st ids recalculate itemUsers with
    | (.error e, st) => (.error e, st)
    | (.ok factors, st) =>
      let filter := filterItems.map PyFilter.ids
      let count := annCount N filterItems
      match ids with
      | .one i =>
        match factors with
        | [] => (.error .indexError, st)
        | q :: _ =>
          let q' := normalizeVec env.norm q
          let st := if recalculate then st else { st with item := st.item.set i q' }
          (.ok (.one (annFilter filter N (search q' count))), st)
      | .many _ =>
        ((annFilterBatch filter N (factors.map fun q => search (normalizeVec env.norm q) count)).map
          .many, st)

/-- `implicit/ann/faiss.py:222-276`, `recommend` once the model is known to be approximate, and not
both batched and filtered by liked items. -/
def faissRecommendDirect (env : Env f R) (search : Vec f R → Nat → List (Int × R)) (useGpu : Bool)
    (st : MFState f R) (ids : Ids) (userItems : Option (SpRows R)) (N : Nat) (filterLiked : Bool)
    (filterItems : Option PyFilter) (recalculate : Bool) :
    Except Err (AnnAnswer R) × MFState f R :=
  if recalculate then (.error .notImplemented, st)
  else
    match (do
      let users ← gather st.user ids.toList
      let likes ← annLikes filterLiked userItems
      let plan ← annPlan N filterItems likes
      pure (users, plan) : Except Err (List (Vec f R) × Nat × Option (List Nat))) with
    | .error e => (.error e, st)
    | .ok (users, count, filter) =>
      if useGpu && decide (1024 ≤ count) then
        delegate env st (.recommend ids userItems N filterLiked (filter.map .array) false none)
      else
        match ids with
        | .one _ =>
          match users with
          | [] => (.error .indexError, st)
          | q :: _ => (.ok (.one (annFilter filter N (search q count))), st)
        | .many _ =>
          ((annFilterBatch filter N (users.map fun q => search q count)).map .many, st)

/-- `implicit/ann/faiss.py:212-276`.  `warnings.warning` (213) does not exist, so a model built with
`approximate_recommend=False` raises `AttributeError` instead of delegating. -/
def faissRecommendOne (env : Env f R) (search : Vec f R → Nat → List (Int × R))
    (approximate useGpu : Bool) (N : Nat) (filterLiked : Bool) (filterItems : Option PyFilter)
    (recalculate : Bool) (st : MFState f R) (ids : Ids) (userItems : Option (SpRows R)) :
    Except Err (AnnAnswer R) × MFState f R :=
  if !approximate then (.error .attributeError, st)
  else faissRecommendDirect env search useGpu st ids userItems N filterLiked filterItems recalculate

/-- `implicit/ann/faiss.py:180-276`, `recommend`. -/
def faissRecommend (env : Env f R) (search : Vec f R → Nat → List (Int × R))
    (approximate useGpu : Bool) (st : MFState f R) (ids : Ids) (userItems : Option (SpRows R))
    (N : Nat) (filterLiked : Bool) (filterItems : Option PyFilter) (recalculate : Bool)
    (items : Option (List Int)) : Except Err (AnnAnswer R) × MFState f R :=
  if (filterLiked || recalculate) && userItems.isNone then (.error .valueError, st)
  else if items.isSome && approximate then (.error .notImplemented, st)
  else
    match ids with
    | .one u =>
      faissRecommendOne env search approximate useGpu N filterLiked filterItems recalculate st (.one u)
        userItems
    | .many us =>
      if filterLiked then
        let r := batchCall env.neginf N
          (fun st u rows =>
            match faissRecommendOne env search approximate useGpu N filterLiked filterItems recalculate
                st (.one u) rows with
            | (.ok (.one row), st) => (.ok row, st)
            | (.ok (.many _), st) => (.error .typeError, st)
            | (.error e, st) => (.error e, st))
          userItems 0 us st
        (r.1.map .many, r.2)
      else
        faissRecommendOne env search approximate useGpu N filterLiked filterItems recalculate st
          (.many us) userItems

end Implicit
