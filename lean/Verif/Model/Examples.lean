import Verif.Model.NearestNeighbours
/-!
# `examples/lastfm.py` and `examples/movielens.py`

The two command line programs: they train a model, ask it in batches and write one line of three
tab-separated columns per neighbour or recommendation.  A line is a triple of two names and a score (the formatting of
the line as text is not modelled).  Training is not repeated here: the models come as the answers of their
`similar_items` / `recommend`.  When a call raises, the program ends with that error (the lines already written to the
file are not part of the result).
-/

namespace Implicit

variable {R : Type} {α : Type}

/-- `np.ediff1d(plays.indptr)` and `sorted(np.arange(len(artists)), key=lambda x: -user_count[x])`
(`examples/lastfm.py:98-99`, `examples/movielens.py:84-85`): `IndexError` when there are more names than rows.  Python's
sort is stable, and so is insertion sort. -/
def popularOrder (rows : SpRows R) (n : Nat) : Except Err (List Nat) :=
  if rows.length < n then .error .indexError
  else .ok ((List.range n).insertionSort fun a b => (rows.getD b []).length ≤ (rows.getD a []).length)

/-- `for startidx in range(0, len(to_generate), batch_size): batch = to_generate[startidx : startidx + batch_size]`
(`examples/lastfm.py:106-107`, 154-155, `examples/movielens.py:91-92`). -/
def slices {β : Type} (size : Nat) (l : List β) : List (List β) :=
  (List.range ((l.length + size - 1) / size)).map fun k => (l.drop (k * size)).take size

/-- `for other, score in zip(ids[i], scores[i]): o.write(...)` (`examples/lastfm.py:111-112`, 161-162,
`examples/movielens.py:99-100`). A negative id is an index from the end (numpy). -/
def writeAnswer (titles : List α) (name : α) (answer : List (Int × R)) : Except Err (List (α × α × R)) :=
  answer.mapM fun p => do
    let other ← pyIndex titles p.1
    pure (name, other, p.2)

/-- Body of `for i, artistid in enumerate(batch)` (`examples/lastfm.py:109-112`, 159-162,
`examples/movielens.py:94-100`; `skip` is the test of line 97, absent from the other program). -/
def writeOne (labels titles : List α) (skip : Nat → Bool) (answers : List (List (Int × R))) (p : Nat × Nat) :
    Except Err (List (α × α × R)) :=
  if skip p.1 then .ok []
  else do
    let name ← pyIndex labels p.1
    match answers[p.2]? with
    | none => .error .indexError
    | some row => writeAnswer titles name row

/-- One batch: ask the model once, then write the answer of each id of the batch. -/
def writeBatch (labels titles : List α) (skip : Nat → Bool) (ask : List Nat → Except Err (List (List (Int × R))))
    (batch : List Nat) : Except Err (List (α × α × R)) := do
  let answers ← ask batch
  let parts ← batch.zipIdx.mapM (writeOne labels titles skip answers)
  pure parts.flatten

/-- The loop over the batches of 1000 ids (`examples/lastfm.py:103-113`, 151-163, `examples/movielens.py:88-101`). -/
def writeFile (labels titles : List α) (skip : Nat → Bool) (ask : List Nat → Except Err (List (List (Int × R))))
    (order : List Nat) : Except Err (List (α × α × R)) := do
  let parts ← (slices 1000 order).mapM (writeBatch labels titles skip ask)
  pure parts.flatten

/-- `examples/lastfm.py:69-115`, `calculate_similar_artists`, after training; `plays` has one row per artist. -/
def similarArtists (artists : List α) (plays : SpRows R) (ask : List Nat → Except Err (List (List (Int × R)))) :
    Except Err (List (α × α × R)) := do
  let order ← popularOrder plays artists.length
  writeFile artists artists (fun _ => false) ask order

/-- `examples/movielens.py:36-101`, `calculate_similar_movies`, after training; `ratings` has one row per movie.  A movie
without ratings is skipped (line 97). -/
def similarMovies (titles : List α) (ratings : SpRows R) (ask : List Nat → Except Err (List (List (Int × R)))) :
    Except Err (List (α × α × R)) := do
  let order ← popularOrder ratings titles.length
  writeFile titles titles (fun i => (ratings.getD i []).isEmpty) ask order

/-- `examples/lastfm.py:118-166`, `calculate_recommendations`, after training. -/
def userRecommendations (users artists : List α) (ask : List Nat → Except Err (List (List (Int × R)))) :
    Except Err (List (α × α × R)) :=
  writeFile users artists (fun _ => false) ask (List.range users.length)

variable [LinearOrder R] [Field R] {f : Nat}

/-- `examples/movielens.py:41-45`: ratings below the minimum are set to zero, zeros are eliminated, and what is left
becomes 1. -/
def positiveRatings (minRating : R) (ratings : SpRows R) : SpRows R :=
  ratings.map fun row =>
    ((row.map fun e => if e.2 < minRating then (e.1, 0) else e).filter fun e => e.2 ≠ 0).map fun e => (e.1, 1)

/-- `model.similar_items(batch, 11)` of a matrix factorization model (`examples/lastfm.py:108`). -/
def askSimilar (H : HeapImpl (R × Nat) pairLt) (neginf : R) (factors : List (Vec f R)) (norms : List R)
    (batch : List Nat) : Except Err (List (List (Int × R))) := do
  match ← similar H neginf factors norms (.many batch) 11 none none with
  | .one row => .ok [intRow row]
  | .many rows => .ok (rows.map intRow)

/-- `model.similar_items(batch, 11)` of an item-item model (`examples/lastfm.py:108`). -/
def askNeighbours (A : ArgSort R) (lowest lowest32 : R) (sim : SpRows R) (batch : List Nat) :
    Except Err (List (List (Int × R))) := do
  match ← knnSimilar A lowest lowest32 sim (.many batch) 11 false none none false with
  | .one row => .ok [row]
  | .many rows => .ok rows

/-- `model.recommend(batch, user_plays[batch], filter_already_liked_items=True)` of a matrix factorization model
(`examples/lastfm.py:156-158`; `N` is 10 by default). -/
def askRecommend (H : HeapImpl (R × Nat) pairLt) (neginf : R) (m : Factors f R)
    (recalc : SpRows R → Except Err (List (Vec f R))) (userPlays : SpRows R) (batch : List Nat) :
    Except Err (List (List (Int × R))) := do
  let rows ← gather userPlays batch
  match ← recommend H neginf m recalc (.many batch) (some rows) 10 true none false none with
  | .one row => .ok [intRow row]
  | .many rows => .ok (rows.map intRow)

end Implicit
