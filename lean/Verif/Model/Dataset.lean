import Mathlib.Data.List.Sort
import Mathlib.Data.List.Dedup
import Mathlib.Algebra.Group.Defs
import Verif.Model.Basic
/-!
# Dataset files: `implicit/datasets/*.py`

Generation of a dataset file from raw tables and reading it back.  A raw table is a list of records; `isNa` says which
texts pandas takes for missing values.  HDF5 keeps what is written.  Simplified: values are exact (the code
converts to `float32`); pandas may parse columns of digits as numbers, here the identifiers stay what they are;
`KeyError` is represented by `indexError`.
-/

namespace Implicit

variable {R : Type} {K : Type}

/-! ## Library functions -/

/-- `column.astype("category")`, then `.cat.categories`: the distinct values that are not missing, sorted. -/
def categoriesOf [LinearOrder K] (column : List (Option K)) : List K :=
  (column.filterMap id).dedup.insertionSort (· ≤ ·)

/-- `.cat.codes`: position in the categories, `-1` for missing values. -/
def categoryCode [DecidableEq K] (cats : List K) : Option K → Int
  | none => -1
  | some k => cats.idxOf k

/-- Largest element plus one. -/
def maxSucc (l : List Int) : Int := l.foldl max (-1) + 1

/-- `scipy.sparse.coo_matrix((data, (row, col)))` without a shape: `ValueError` without entries and for negative
indices. -/
def cooMatrix (entries : List (Int × Int × R)) : Except Err (Nat × Nat × List (Nat × Nat × R)) :=
  if entries.isEmpty then .error .valueError
  else if (entries.any fun e => decide (e.1 < 0 ∨ e.2.1 < 0)) = true then .error .valueError
  else .ok ((maxSucc (entries.map fun e => e.1)).toNat, (maxSucc (entries.map fun e => e.2.1)).toNat,
    entries.map fun e => (e.1.toNat, e.2.1.toNat, e.2.2))

/-- `sum_duplicates` of a sorted row. -/
def sumAdjacent [Add R] : List (Nat × R) → List (Nat × R)
  | [] => []
  | e :: l =>
    match sumAdjacent l with
    | [] => [e]
    | e' :: r => if e.1 = e'.1 then (e.1, e.2 + e'.2) :: r else e :: e' :: r

/-- The three arrays of a CSR matrix. -/
structure CsrTriple (R : Type) where
  data : List R
  indices : List Nat
  indptr : List Nat
  deriving DecidableEq

/-- One row of `.tocsr()`: the entries of the row sorted by column, duplicates summed. -/
def dsRow [Add R] (entries : List (Nat × Nat × R)) (i : Nat) : List (Nat × R) :=
  sumAdjacent (((entries.filter fun e => e.1 = i).map fun e => e.2).insertionSort fun a b => a.1 ≤ b.1)

/-- The arrays of a list of rows. -/
def csrArrays (rows : List (List (Nat × R))) : CsrTriple R where
  data := rows.flatten.map Prod.snd
  indices := rows.flatten.map Prod.fst
  indptr := (rows.map List.length).scanl (· + ·) 0

/-- `coo_matrix((data, (row, col))).tocsr()`. -/
def dsToCsr [Add R] (entries : List (Int × Int × R)) : Except Err (CsrTriple R) := do
  let m ← cooMatrix entries
  pure (csrArrays ((List.range m.1).map (dsRow m.2.2)))

/-- Slices of a list at consecutive pointers. -/
def slicesAt {A : Type} (l : List A) : List Nat → List (List A)
  | a :: b :: p => (l.drop a).take (b - a) :: slicesAt l (b :: p)
  | _ => []

/-- `scipy.sparse.csr_matrix((data, indices, indptr))` without a shape: the rows and the number of columns. -/
def csrMatrix (t : CsrTriple R) : Except Err (List (List (Nat × R)) × Nat) :=
  if t.indices.isEmpty ∨ t.indptr.head? ≠ some 0 ∨ t.data.length ≠ t.indices.length ∨
    t.indices.length < t.indptr.getLastD 0 then .error .valueError
  else .ok (slicesAt (t.indices.zip t.data) t.indptr, t.indices.foldl max 0 + 1)

/-! ## Files -/

/-- An HDF5 file: groups with a CSR matrix and datasets with rows of strings. -/
structure H5File (R K : Type) where
  groups : List (String × CsrTriple R)
  sets : List (String × List (List K))
  deriving DecidableEq

/-- A string as the reader gets it: `asstr()` or not. -/
inductive H5Str (K : Type) where
  | text (k : K)
  | bytes (k : K)
  deriving DecidableEq

/-- What the text of an identifier becomes: with `na_filter`, texts such as `NA` or `null` are missing. -/
def parseId (naFilter : Bool) (isNa : K → Bool) (k : K) : Option K :=
  if naFilter = true ∧ isNa k = true then none else some k

/-- `f.get(group)`, its three arrays, and `csr_matrix`; `None.get` raises `AttributeError`. -/
def readGroup (file : H5File R K) (group : String) : Except Err (List (List (Nat × R)) × Nat) :=
  match file.groups.lookup group with
  | none => .error .attributeError
  | some t => csrMatrix t

/-- `f[name]`. -/
def readSet (file : H5File R K) (name : String) : Except Err (List (List K)) :=
  match file.sets.lookup name with
  | none => .error .indexError
  | some s => .ok s

/-- A dataset of single strings. -/
def column1 (names : List K) : List (List K) := names.map fun k => [k]

section Generic

variable [LinearOrder K] [Add R]

/-- The matrix of `(row key, column key, value)` records with category codes. -/
def codedCsr (records : List (Option K × Option K × R)) : Except Err (CsrTriple R) :=
  let rows := categoriesOf (records.map fun r => r.1)
  let cols := categoriesOf (records.map fun r => r.2.1)
  dsToCsr (records.map fun r => (categoryCode rows r.1, categoryCode cols r.2.1, r.2.2))

/-- `implicit/datasets/lastfm.py:34-94`: `(user, artist, plays)` records, `na_filter=False`; rows are users. -/
def generateLastfm (isNa : K → Bool) (table : List (K × K × R)) : Except Err (H5File R K) := do
  let data := table.map fun r => (parseId false isNa r.1, parseId false isNa r.2.1, r.2.2)
  let plays ← codedCsr data
  pure ⟨[("artist_user_plays", plays)],
    [("artist", column1 (categoriesOf (data.map fun r => r.2.1))),
      ("user", column1 (categoriesOf (data.map fun r => r.1)))]⟩

/-- `implicit/datasets/lastfm.py:28-31`. -/
def getLastfm (file : H5File R K) :
    Except Err (List (H5Str K) × List (H5Str K) × List (List (Nat × R)) × Nat) := do
  let plays ← readGroup file "artist_user_plays"
  let artist ← readSet file "artist"
  let user ← readSet file "user"
  pure (artist.flatten.map .text, user.flatten.map .text, plays)

/-- `implicit/datasets/reddit.py:38-82`: `(user, item, rating)` records. -/
def generateReddit (isNa : K → Bool) (table : List (K × K × R)) : Except Err (H5File R K) := do
  let data := table.map fun r => (parseId true isNa r.2.1, parseId true isNa r.1, r.2.2)
  let ratings ← codedCsr data
  pure ⟨[("item_user_ratings", ratings)], []⟩

/-- `implicit/datasets/reddit.py:33-35`. -/
def getReddit (file : H5File R K) : Except Err (List (List (Nat × R)) × Nat) := readGroup file "item_user_ratings"

/-- `implicit/datasets/sketchfab.py:38-84`: `(uid, mid)` records, all values one. -/
def generateSketchfab [One R] (isNa : K → Bool) (table : List (K × K)) : Except Err (H5File R K) := do
  let data := table.map fun r => (parseId true isNa r.2, parseId true isNa r.1, (1 : R))
  let likes ← codedCsr data
  pure ⟨[("item_user_likes", likes)],
    [("item", column1 (categoriesOf (data.map fun r => r.1))),
      ("user", column1 (categoriesOf (data.map fun r => r.2.1)))]⟩

/-- `implicit/datasets/sketchfab.py:32-35`. -/
def getSketchfab (file : H5File R K) :
    Except Err (List (H5Str K) × List (H5Str K) × List (List (Nat × R)) × Nat) := do
  let likes ← readGroup file "item_user_likes"
  let item ← readSet file "item"
  let user ← readSet file "user"
  pure (item.flatten.map .bytes, user.flatten.map .bytes, likes)

/-- A song of the summary file, `song[j]`. -/
abbrev MsdSong (K : Type) := Nat → K

/-- `implicit/datasets/million_song_dataset.py:85-102`: the rows of songs that are in the table, the last one of
each track; rows of other tracks stay empty and are written as empty strings. -/
def joinSummary (blank : K) (tracks : List K) (songs : List (MsdSong K)) : List (List K) :=
  (songs.foldl (fun info song =>
      if song 17 ∈ tracks then
        info.set (tracks.idxOf (song 17)) (some [song 17, song 9, song 14, song 18]) else info)
    (List.replicate tracks.length none)).map fun r => r.getD [blank, blank, blank, blank]

/-- `implicit/datasets/million_song_dataset.py:44-127`: `(user, track, plays)` records of the file
`"train_triplets.txt"`, whatever `triplets_filename` is.  `npObject`: `np.object` exists (numpy before 1.24). -/
def generateMsd (npObject : Bool) (isNa : K → Bool) (blank : K) (files : String → Option (List (K × K × R)))
    (songs : List (MsdSong K)) (_tripletsFilename : String) : Except Err (H5File R K) := do
  let table ← match files "train_triplets.txt" with
    | none => throw .fileNotFound
    | some t => pure t
  let data := table.map fun r => (parseId true isNa r.2.1, parseId true isNa r.1, r.2.2)
  if npObject = false then throw .attributeError
  let info := joinSummary blank (categoriesOf (data.map fun r => r.1)) songs
  let plays ← codedCsr data
  pure ⟨[("track_user_plays", plays)],
    [("track", info), ("user", column1 (categoriesOf (data.map fun r => r.2.1)))]⟩

/-- `implicit/datasets/million_song_dataset.py:38-41`. -/
def getMsd (file : H5File R K) :
    Except Err (List (List (H5Str K)) × List (H5Str K) × List (List (Nat × R)) × Nat) := do
  let plays ← readGroup file "track_user_plays"
  let track ← readSet file "track"
  let user ← readSet file "user"
  pure (track.map fun row => row.map .bytes, user.flatten.map .bytes, plays)

omit [LinearOrder K] in
/-- `titles[movies.movieId] = movies.title` (`implicit/datasets/movielens.py:123-124`); entries that are not
assigned are written as empty strings. -/
def movieTitles (blank : K) (movies : List (Nat × K)) : List K :=
  (movies.foldl (fun t m => t.set m.1 (some m.2))
    (List.replicate ((movies.map Prod.fst).foldl max 0 + 1) none)).map fun t => t.getD blank

omit [LinearOrder K] in
/-- `implicit/datasets/movielens.py:112-129`, with `(userId, movieId, rating)` and `(movieId, title)` records: the file
on disk and the outcome.  The titles are computed after the file has been opened and the matrix written. -/
def generateMovielens (npObject : Bool) (blank : K) (ratings : List (Nat × Nat × R)) (movies : List (Nat × K))
    (disk : Option (H5File R K)) : Option (H5File R K) × Except Err Unit :=
  match dsToCsr (ratings.map fun r => ((r.2.1 : Int), (r.1 : Int), r.2.2)) with
  | .error e => (disk, .error e)
  | .ok m =>
    let file : H5File R K := ⟨[("movie_user_ratings", m)], []⟩
    if npObject = false then (some file, .error .attributeError)
    else if movies.isEmpty then (some file, .error .typeError)
    else (some { file with sets := [("movie", column1 (movieTitles blank movies))] }, .ok ())

omit [LinearOrder K] [Add R] in
/-- `implicit/datasets/movielens.py:42-45`. -/
def getMovielens (file : H5File R K) : Except Err (List (H5Str K) × List (List (Nat × R)) × Nat) := do
  let plays ← readGroup file "movie_user_ratings"
  let movie ← readSet file "movie"
  pure (movie.flatten.map .text, plays)

end Generic

end Implicit
