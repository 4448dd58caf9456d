import Verif.Model.Ann
/-!
# Item-item models: `implicit/nearest_neighbours.h`, `implicit/_nearest_neighbours.pyx`,
`implicit/nearest_neighbours.py`
-/

namespace Implicit

variable {R : Type}

/-! ## `SparseMatrixMultiplier` (`implicit/nearest_neighbours.h:41-80`) -/

/-- The members of `SparseMatrixMultiplier`; `next` is the vector called `nonzeros` (links of a list
threaded through the touched indices; `-1`: not in the list). -/
structure Accum (R : Type) where
  sums : List R
  next : List Int
  head : Int
  length : Nat
deriving DecidableEq, Repr

/-- The constructor (`implicit/nearest_neighbours.h:43-44`). -/
def Accum.new [Zero R] (n : Nat) : Accum R := ⟨List.replicate n 0, List.replicate n (-1), -2, 0⟩

/-- `add` (`implicit/nearest_neighbours.h:47-55`). -/
def Accum.add [Add R] (a : Accum R) (i : Nat) (v : R) : Except Err (Accum R) :=
  match a.sums[i]?, a.next[i]? with
  | some s, some nx =>
    if nx = -1 then
      .ok ⟨a.sums.set i (s + v), a.next.set i a.head, (i : Int), a.length + 1⟩
    else .ok { a with sums := a.sums.set i (s + v) }
  | _, _ => .error .undefinedBehaviour

/-- A sequence of calls of `add`. -/
def Accum.addAll [Add R] : Accum R → List (Nat × R) → Except Err (Accum R)
  | a, [] => .ok a
  | a, e :: es => do Accum.addAll (← a.add e.1 e.2) es

/-- `for (i = 0; i < length; ++i)` of `foreach` (`implicit/nearest_neighbours.h:59-70`) with the first
argument counting down: the pairs the functor is called with, and the final members. -/
def Accum.drain [Zero R] : Nat → Accum R → Except Err (List (Nat × R) × Accum R)
  | 0, a => .ok ([], { a with length := 0, head := -2 })
  | n + 1, a =>
    match a.head with
    | .negSucc _ => .error .undefinedBehaviour
    | .ofNat i =>
      match a.sums[i]?, a.next[i]? with
      | some s, some nx => do
        let r ← Accum.drain n ⟨a.sums.set i 0, a.next.set i (-1), nx, a.length⟩
        pure ((i, s) :: r.1, r.2)
      | _, _ => .error .undefinedBehaviour

/-- `foreach` (`implicit/nearest_neighbours.h:58-73`).  The functors used (`TopK`) do not touch the
accumulator, so the calls are returned as a list. -/
def Accum.foreach [Zero R] (a : Accum R) : Except Err (List (Nat × R) × Accum R) :=
  a.drain a.length

/-- `self.neighbours.sums[i] = 0` (`implicit/_nearest_neighbours.pyx:85`). -/
def Accum.clear [Zero R] (a : Accum R) (i : Nat) : Except Err (Accum R) :=
  if i < a.sums.length then .ok { a with sums := a.sums.set i 0 } else .error .undefinedBehaviour

/-- The loop of `implicit/_nearest_neighbours.pyx:83-85`. -/
def Accum.clearAll [Zero R] : Accum R → List Nat → Except Err (Accum R)
  | a, [] => .ok a
  | a, i :: is => do Accum.clearAll (← a.clear i) is

/-! ## `all_pairs_knn` (`implicit/_nearest_neighbours.pyx:111-170`) -/

section
variable [LinearOrder R] [Field R]

/-- The calls of `add` made by two nested loops over sparse rows: for each entry `(u, w)` of `row`
and each entry `(j, v)` of row `u` of `M`, `add(j, v * w)` (`implicit/_nearest_neighbours.pyx:73-79`
and `142-148`).  A row that does not exist is read out of bounds. -/
def productAdds (M : SpRows R) : List (Nat × R) → Except Err (List (Nat × R))
  | [] => .ok []
  | e :: row =>
    match M[e.1]? with
    | none => .error .undefinedBehaviour
    | some r => do
      let rest ← productAdds M row
      pure (r.map (fun x => (x.1, x.2 * e.2)) ++ rest)

/-- One iteration of the parallel loop up to the copy of the results
(`implicit/_nearest_neighbours.pyx:142-151`): contents of `topk.results` (in heap order, not sorted)
and the accumulator of the thread. -/
def knnRow (H : HeapImpl (R × Nat) pairLt) (K : Nat) (users : SpRows R) (itemRow : List (Nat × R))
    (a : Accum R) : Except Err (List (R × Nat) × Accum R) := do
  let adds ← productAdds users itemRow
  let a ← a.addAll adds
  let r ← a.foreach
  let h ← offerAll H K [] (r.1.map Prod.swap)
  pure (h, r.2)

/-- `item_count * K` (`implicit/_nearest_neighbours.pyx:133-135`): the product of an `int` and an
`unsigned int` is an `unsigned int`. -/
def knnAllocated (n K : Nat) : Nat := n * K % 2 ^ 32

/-- The cell addressed by `rows[index2]` after `index2 = K * i` and `pos` increments
(`implicit/_nearest_neighbours.pyx:153-159`).  `K * i` is computed in `unsigned int` and stored in an
`int`; incrementing past the largest `int` is undefined; a negative index counts from the end
(Cython's `wraparound` is on), and `boundscheck` is off. -/
def knnSlot (n K i pos : Nat) : Except Err Nat :=
  let index2 : Int := Int.bmod ((K * i : Nat) : Int) (2 ^ 32) + pos
  if (2 : Int) ^ 31 ≤ index2 then .error .undefinedBehaviour
  else
    let idx := if index2 < 0 then index2 + knnAllocated n K else index2
    if 0 ≤ idx ∧ idx < knnAllocated n K then .ok idx.toNat else .error .undefinedBehaviour

/-- A slot of the output arrays `rows`, `cols`, `values`. -/
abbrev KnnCell (R : Type) := Nat × Nat × R

/-- The stores of iteration `i` (`implicit/_nearest_neighbours.pyx:155-159`). -/
def knnStores (n K i : Nat) (h : List (R × Nat)) : Except Err (List (Nat × KnnCell R)) :=
  h.zipIdx.mapM fun p => do
    let s ← knnSlot n K i p.2
    pure (s, (i, p.1.2, p.1.1))

/-- The loop over the items run by one thread, from item `i` on. -/
def knnLoop (H : HeapImpl (R × Nat) pairLt) (n K : Nat) (users : SpRows R) :
    Nat → SpRows R → Accum R → Except Err (List (Nat × KnnCell R) × Accum R)
  | _, [], a => .ok ([], a)
  | i, row :: rows, a => do
    let r ← knnRow H K users row a
    let ws ← knnStores n K i r.1
    let rest ← knnLoop H n K users (i + 1) rows r.2
    pure (ws ++ rest.1, rest.2)

/-- `all_pairs_knn` run with one thread: the COO triples (all slots, used or not).
`users` has `n` columns. -/
def allPairsKnn (H : HeapImpl (R × Nat) pairLt) (n K : Nat) (users : SpRows R) :
    Except Err (List (KnnCell R)) := do
  let r ← knnLoop H n K users 0 (transposeRows n users) (Accum.new n)
  writeAll (List.replicate (knnAllocated n K) (0, 0, 0)) r.1

/-- scipy: the stored entries of a row after `sum_duplicates`: columns ascending, values of equal
columns added. -/
def coalesce (es : List (Nat × R)) : List (Nat × R) :=
  ((es.map Prod.fst).dedup.insertionSort (· ≤ ·)).map fun c =>
    (c, ((es.filter fun e => e.1 == c).map Prod.snd).sum)

/-- scipy `coo_matrix((values, (rows, cols)), shape=(n, n)).tocsr()`. -/
def cooToCsr (n : Nat) (cells : List (KnnCell R)) : SpRows R :=
  (List.range n).map fun r =>
    coalesce ((cells.filter fun c => c.1 == r).map fun c => (c.2.1, c.2.2))

/-- `ItemItemRecommender.fit` (`implicit/nearest_neighbours.py:30-41`): the similarity matrix. -/
def knnFit (H : HeapImpl (R × Nat) pairLt) (n K : Nat) (weighted : SpRows R) (callback : Bool) :
    Except Err (SpRows R) := do
  if callback then throw Err.notImplemented
  let cells ← allPairsKnn H n K weighted
  pure (cooToCsr n cells)

/-! ## `NearestNeighboursScorer` (`implicit/_nearest_neighbours.pyx:42-107`) -/

/-- `NearestNeighboursScorer.recommend` (`implicit/_nearest_neighbours.pyx:60-105`) for the row of the
user (row 0 of the matrix passed).  The accumulator is a member of the scorer. -/
def scorerRecommend (H : HeapImpl (R × Nat) pairLt) (sim : SpRows R) (a : Accum R)
    (row : List (Nat × R)) (K : Nat) (removeOwnLikes : Bool) :
    Except Err (List (Nat × R) × Accum R) := do
  let adds ← productAdds sim row
  let a ← a.addAll adds
  let a ← if removeOwnLikes then a.clearAll (row.map Prod.fst) else pure a
  let r ← a.foreach
  let h ← offerAll H K [] (r.1.map Prod.swap)
  pure ((H.sort h).map Prod.swap, r.2)

/-! ## `ItemItemRecommender` (`implicit/nearest_neighbours.py`) -/

/-- A fitted `ItemItemRecommender`: `similarity` and the accumulator inside `scorer`. -/
structure KnnState (R : Type) where
  similarity : SpRows R
  acc : Accum R
deriving DecidableEq

/-- The state after `fit` / `load` / `__setstate__`: a new scorer
(`implicit/nearest_neighbours.py:41,156,182`). -/
def KnnState.ofSimilarity (sim : SpRows R) : KnnState R := ⟨sim, Accum.new sim.length⟩

/-- `implicit/nearest_neighbours.py:71-81`: the number of results to ask for, after the checks. -/
def knnPlan (rows : Nat) (N : Nat) (filterItems items : Option (List Int)) : Except Err Nat :=
  match filterItems, items with
  | some _, some _ => .error .valueError
  | some F, none => .ok (N + F.length)
  | none, some S =>
    if S.isEmpty then .error .valueError
    else if S.any (fun i => decide ((rows : Int) ≤ i) || decide (i < 0)) then .error .indexError
    else .ok rows
  | none, none => .ok N

/-- `implicit/nearest_neighbours.py:91-105`: what is done with the results.  `N` is the number asked
for, *after* line 75 changed it. -/
def knnPost (lowest : R) (N : Nat) (filterItems items : Option (List Int)) (out : List (Nat × R)) :
    List (Int × R) :=
  match filterItems, items with
  | some F, _ => ((intRow out).filter fun p => !F.contains p.1).take N
  | none, some S =>
    let kept := (intRow out).filter fun p => S.contains p.1
    kept ++ (S.filter fun i => !(kept.map Prod.fst).contains i).map fun i => (i, lowest)
  | none, none => intRow out

/-- `ItemItemRecommender.recommend` for one user (`implicit/nearest_neighbours.py:71-105`).  `rows` are
the rows of `user_items`; only row 0 is read, the user id is not used.  `lowest` is
`-np.finfo(np.float64).max`. -/
def knnRecommendOne (H : HeapImpl (R × Nat) pairLt) (lowest : R) (st : KnnState R) (rows : SpRows R)
    (N : Nat) (filterLiked : Bool) (filterItems items : Option (List Int)) :
    Except Err (List (Int × R)) × KnnState R :=
  match knnPlan st.similarity.length N filterItems items with
  | .error e => (.error e, st)
  | .ok n =>
    match rows with
    | [] => (.error .undefinedBehaviour, st)
    | row :: _ =>
      match scorerRecommend H st.similarity st.acc row n filterLiked with
      | .error e => (.error e, st)
      | .ok r => (.ok (knnPost lowest n filterItems items r.1), { st with acc := r.2 })

/-- One call made by `_batch_call` (`implicit/nearest_neighbours.py:60-69`). -/
def knnBatchFunc (H : HeapImpl (R × Nat) pairLt) (lowest : R) (N : Nat) (filterLiked : Bool)
    (filterItems items : Option (List Int)) (st : KnnState R) (_id : Nat)
    (rows : Option (SpRows R)) : Except Err (List (Int × R)) × KnnState R :=
  knnRecommendOne H lowest st (rows.getD []) N filterLiked filterItems items

/-- `ItemItemRecommender.recommend` (`implicit/nearest_neighbours.py:43-105`); `lowest32` is
`-np.finfo(np.float32).max`.  `isCsr`: is `user_items` a `csr_matrix`? -/
def knnRecommend (H : HeapImpl (R × Nat) pairLt) (lowest lowest32 : R) (st : KnnState R) (ids : Ids)
    (isCsr : Bool) (rows : SpRows R) (N : Nat) (filterLiked : Bool)
    (filterItems items : Option (List Int)) : Except Err (AnnAnswer R) × KnnState R :=
  if !isCsr then (.error .valueError, st)
  else
    match ids with
    | .one _ =>
      match knnRecommendOne H lowest st rows N filterLiked filterItems items with
      | (.error e, st) => (.error e, st)
      | (.ok r, st) => (.ok (.one r), st)
    | .many us =>
      if rows.length ≠ us.length then (.error .valueError, st)
      else
        match batchCall lowest32 N (knnBatchFunc H lowest N filterLiked filterItems items) (some rows)
            0 us st with
        | (.error e, st) => (.error e, st)
        | (.ok r, st) => (.ok (.many r), st)

/-- `rank_items` (`implicit/recommender_base.py:203-215`): `recommend` with `items` and without the
filter of liked items. -/
def knnRankItems (H : HeapImpl (R × Nat) pairLt) (lowest lowest32 : R) (st : KnnState R) (ids : Ids)
    (isCsr : Bool) (rows : SpRows R) (selected : List Int) :
    Except Err (AnnAnswer R) × KnnState R :=
  knnRecommend H lowest lowest32 st ids isCsr rows 10 false none (some selected)

/-- What is assumed of `np.argsort`: it orders the entries by ascending score; the order of equal
scores is whatever numpy's sort happens to do. -/
structure ArgSort (R : Type) [LE R] where
  sort : List (Int × R) → List (Int × R)
  perm : ∀ l, (sort l).Perm l
  sorted : ∀ l, (sort l).Pairwise fun a b => a.2 ≤ b.2

/-- `best = np.argsort(scores)[::-1][:N]`, `ids[best], scores[best]`
(`implicit/nearest_neighbours.py:144-145`). -/
def argsortDesc (A : ArgSort R) (N : Nat) (row : List (Int × R)) : List (Int × R) :=
  (A.sort row).reverse.take N

/-- `similar_items` for one item (`implicit/nearest_neighbours.py:121-145`).  A negative id is an
index from the end (scipy), `IndexError` beyond. `isArray`: are `items` given as a numpy array?  A list
cannot be indexed by a mask (`items[...]`, line 139). -/
def knnSimilarOne (A : ArgSort R) (lowest : R) (sim : SpRows R) (itemid : Int) (N : Nat)
    (filterItems items : Option (List Int)) (isArray : Bool) : Except Err (List (Int × R)) :=
  match filterItems, items with
  | some _, some _ => .error .valueError
  | F, S =>
    if (sim.length : Int) ≤ itemid then .ok []
    else if itemid < -(sim.length : Int) then .error .indexError
    else
      let k := if itemid < 0 then (itemid + sim.length).toNat else itemid.toNat
      let row := intRow (sim.getD k [])
      match F, S with
      | some F, _ => .ok (argsortDesc A N (row.filter fun p => !F.contains p.1))
      | none, some S =>
        if !isArray then .error .typeError
        else
          let kept := row.filter fun p => S.contains p.1
          .ok (argsortDesc A N
            (kept ++ (S.filter fun i => !(kept.map Prod.fst).contains i).map fun i => (i, lowest)))
      | none, none => .ok (argsortDesc A N row)

/-- `similar_items` (`implicit/nearest_neighbours.py:110-145`). -/
def knnSimilar (A : ArgSort R) (lowest lowest32 : R) (sim : SpRows R) (ids : Ids) (N : Nat) (recalculate : Bool)
    (filterItems items : Option (List Int)) (isArray : Bool) : Except Err (AnnAnswer R) :=
  if recalculate then .error .notImplemented
  else
    match ids with
    | .one i => (knnSimilarOne A lowest sim i N filterItems items isArray).map .one
    | .many is =>
      ((batchCall lowest32 N (fun (_ : Unit) (i : Nat) _ =>
        (knnSimilarOne A lowest sim i N filterItems items isArray, ())) none 0 is ()).1).map .many

/-- `similar_users` (`implicit/nearest_neighbours.py:107-108`). -/
def knnSimilarUsers : Except Err (AnnAnswer R) := .error .notImplemented

end

end Implicit
