import Verif.Model.NearestNeighbours

/-!
# The item-item model as an object: unfitted, fitted, calls that raise

`implicit/nearest_neighbours.py`.  The scorer has its own reference to the similarity matrix it was made from, so the
matrix and the scorer are separate attributes here.
-/

namespace Implicit

variable {R : Type} [LinearOrder R] [Field R]

/-- The attributes `similarity` and `scorer` of an `ItemItemRecommender` (`implicit/nearest_neighbours.py:24-28`); the scorer is
its similarity matrix and its accumulator. -/
structure KnnObject (R : Type) where
  similarity : Option (SpRows R)
  scorer : Option (KnnState R)
deriving DecidableEq

/-- `__init__` (`implicit/nearest_neighbours.py:24-28`). -/
def KnnObject.new : KnnObject R := ⟨none, none⟩

/-- The object once `fit` has returned (`implicit/nearest_neighbours.py:35-41`). -/
def KnnObject.fitted (sim : SpRows R) : KnnObject R := ⟨some sim, some (KnnState.ofSimilarity sim)⟩

/-- `implicit/nearest_neighbours.py:71-81`: the checks and the number of results to ask the scorer for.  `self.similarity.shape` of a
model without similarity matrix is an `AttributeError`. -/
def objPlan (o : KnnObject R) (N : Nat) (filterItems items : Option (List Int)) : Except Err Nat :=
  match filterItems, items with
  | none, some S =>
    match o.similarity with
    | none => .error .attributeError
    | some sim => knnPlan sim.length N none (some S)
  | F, S => knnPlan 0 N F S

/-- `recommend` for one user (`implicit/nearest_neighbours.py:71-105`). -/
def objRecommendOne (H : HeapImpl (R × Nat) pairLt) (lowest : R) (o : KnnObject R) (rows : SpRows R) (N : Nat)
    (filterLiked : Bool) (filterItems items : Option (List Int)) : Except Err (List (Int × R)) × KnnObject R :=
  match objPlan o N filterItems items with
  | .error e => (.error e, o)
  | .ok n =>
    match o.scorer with
    | none => (.error .attributeError, o)
    | some s =>
      match rows with
      | [] => (.error .undefinedBehaviour, o)
      | row :: _ =>
        match scorerRecommend H s.similarity s.acc row n filterLiked with
        | .error e => (.error e, o)
        | .ok r => (.ok (knnPost lowest n filterItems items r.1), { o with scorer := some ⟨s.similarity, r.2⟩ })

/-- `recommend` (`implicit/nearest_neighbours.py:43-105`). -/
def objRecommend (H : HeapImpl (R × Nat) pairLt) (lowest lowest32 : R) (o : KnnObject R) (ids : Ids) (isCsr : Bool)
    (rows : SpRows R) (N : Nat) (filterLiked : Bool) (filterItems items : Option (List Int)) :
    Except Err (AnnAnswer R) × KnnObject R :=
  if !isCsr then (.error .valueError, o)
  else
    match ids with
    | .one _ =>
      match objRecommendOne H lowest o rows N filterLiked filterItems items with
      | (.error e, o) => (.error e, o)
      | (.ok r, o) => (.ok (.one r), o)
    | .many us =>
      if rows.length ≠ us.length then (.error .valueError, o)
      else
        match batchCall lowest32 N (fun o _ row => objRecommendOne H lowest o (row.getD []) N filterLiked filterItems items)
            (some rows) 0 us o with
        | (.error e, o) => (.error e, o)
        | (.ok r, o) => (.ok (.many r), o)

/-- `similar_items` for one item (`implicit/nearest_neighbours.py:121-145`). -/
def objSimilarOne (A : ArgSort R) (lowest : R) (o : KnnObject R) (itemid : Int) (N : Nat)
    (filterItems items : Option (List Int)) (isArray : Bool) : Except Err (List (Int × R)) :=
  match filterItems, items with
  | some _, some _ => .error .valueError
  | F, S =>
    match o.similarity with
    | none => .error .attributeError
    | some sim => knnSimilarOne A lowest sim itemid N F S isArray

/-- `similar_items` (`implicit/nearest_neighbours.py:110-145`). -/
def objSimilar (A : ArgSort R) (lowest lowest32 : R) (o : KnnObject R) (ids : Ids) (N : Nat) (recalculate : Bool)
    (filterItems items : Option (List Int)) (isArray : Bool) : Except Err (AnnAnswer R) :=
  if recalculate then .error .notImplemented
  else
    match ids with
    | .one i => (objSimilarOne A lowest o i N filterItems items isArray).map .one
    | .many is =>
      ((batchCall lowest32 N (fun (_ : Unit) (i : Nat) _ =>
        (objSimilarOne A lowest o i N filterItems items isArray, ())) none 0 is ()).1).map .many

/-- `fit` (`implicit/nearest_neighbours.py:30-41` and `186-213`).  `weighted` is the outcome of the weighting function of the class
(`normalize`, `tfidf_weight`, `bm25_weight`), which runs first.  `self.similarity` is assigned before the scorer is made.  The scorer takes
`int` buffers only: scipy stores the column indices of a matrix made of at least `2^31` triples in 64 bits, and the constructor raises
`ValueError`. -/
def objFit (H : HeapImpl (R × Nat) pairLt) (o : KnnObject R) (n K : Nat) (weighted : Except Err (SpRows R)) (callback : Bool) :
    Except Err Unit × KnnObject R :=
  match weighted with
  | .error e => (.error e, o)
  | .ok M =>
    match knnFit H n K M callback with
    | .error e => (.error e, o)
    | .ok sim =>
      if 2 ^ 31 ≤ knnAllocated n K then (.error .valueError, { o with similarity := some sim })
      else (.ok (), .fitted sim)

/-- The public calls on an item-item model. -/
inductive KnnCall (R : Type) where
  | recommend (ids : Ids) (isCsr : Bool) (rows : SpRows R) (N : Nat) (filterLiked : Bool)
      (filterItems items : Option (List Int))
  | rankItems (ids : Ids) (isCsr : Bool) (rows : SpRows R) (selected : List Int)
  | similarItems (ids : Ids) (N : Nat) (recalculate : Bool) (filterItems items : Option (List Int)) (isArray : Bool)
  | similarUsers
  | fit (n K : Nat) (weighted : Except Err (SpRows R)) (callback : Bool)

/-- What the calls depend on besides their arguments. -/
structure KnnEnv (R : Type) [LinearOrder R] where
  heap : HeapImpl (R × Nat) pairLt
  argsort : ArgSort R
  lowest : R
  lowest32 : R

/-- One call: what the caller sees, and the object afterwards. -/
def knnCall (env : KnnEnv R) (o : KnnObject R) : KnnCall R → Except Err (Option (AnnAnswer R)) × KnnObject R
  | .recommend ids isCsr rows N liked F S =>
    let r := objRecommend env.heap env.lowest env.lowest32 o ids isCsr rows N liked F S
    (r.1.map some, r.2)
  | .rankItems ids isCsr rows selected =>
    let r := objRecommend env.heap env.lowest env.lowest32 o ids isCsr rows 10 false none (some selected)
    (r.1.map some, r.2)
  | .similarItems ids N recalculate F S isArray =>
    ((objSimilar env.argsort env.lowest env.lowest32 o ids N recalculate F S isArray).map some, o)
  | .similarUsers => (.error .notImplemented, o)
  | .fit n K weighted callback =>
    let r := objFit env.heap o n K weighted callback
    (r.1.map fun _ => none, r.2)

/-- A history of calls whose exceptions are caught. -/
def knnCalls (env : KnnEnv R) : KnnObject R → List (KnnCall R) →
    List (Except Err (Option (AnnAnswer R))) × KnnObject R
  | o, [] => ([], o)
  | o, c :: cs => ((knnCall env o c).1 :: (knnCalls env (knnCall env o c).2 cs).1, (knnCalls env (knnCall env o c).2 cs).2)

end Implicit
