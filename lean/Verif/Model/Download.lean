import Verif.Model.Basic

/-!
# Model: dataset download and cache

`download_file` calls `urllib.request.urlretrieve` (library): it opens the local file for writing
(truncating it), copies blocks until the connection ends and raises `ContentTooShortError` (an `OSError`) when a
`Content-Length` was announced and fewer bytes arrived.  Nothing removes the local file afterwards.

The process may die at any moment; buffered bytes may be lost, so any prefix of what was received can be on
disk.  `parse` stands for `h5py.File(path)` and the extraction of the arrays.
-/

namespace Implicit

/-- The remote file. -/
structure Remote (B : Type) where
  content : List B
  /-- whether the server announces the length -/
  announced : Bool

/-- What happens during one call of `get_*` that has to download. -/
inductive Transfer where
  /-- the process dies (or the connection fails) before the local file is opened -/
  | notOpened
  /-- the process dies with `k` bytes on disk -/
  | crash (k : Nat)
  /-- the connection ends after `k` bytes -/
  | closed (k : Nat)
  /-- everything arrives -/
  | complete
  deriving DecidableEq, Repr

/-- Result of a call as seen by the caller; a dead process returns nothing. -/
inductive Fetched (D : Type) where
  | died
  | raised (e : Err)
  | data (d : D)
  deriving DecidableEq, Repr

variable {B D : Type}

/-- datasets/_download.py:13-27 -/
def downloadFile (remote : Remote B) : Transfer → Option (List B) → Option (List B) × Fetched Unit
  | .notOpened, disk => (disk, .died)
  | .crash k, _ => (some (remote.content.take k), .died)
  | .closed k, _ =>
    if remote.announced = true ∧ k < remote.content.length then
      (some (remote.content.take k), .raised .runtimeError)
    else (some (remote.content.take k), .data ())
  | .complete, _ => (some remote.content, .data ())

/-- Reading the local file: `h5py.File(path, "r")`. -/
def readLocal (parse : List B → Option D) : Option (List B) → Fetched D
  | none => .raised .fileNotFound
  | some bytes =>
    match parse bytes with
    | none => .raised .runtimeError
    | some d => .data d

/-- `get_movielens` (datasets/movielens.py:34-45); `get_lastfm`, `get_msd_taste_profile`, `get_reddit`,
`get_sketchfab` have the same structure. -/
def getDataset (parse : List B → Option D) (remote : Remote B) (t : Transfer) (disk : Option (List B)) :
    Option (List B) × Fetched D :=
  match disk with
  | some bytes => (some bytes, readLocal parse (some bytes))
  | none =>
    match downloadFile remote t none with
    | (disk', .died) => (disk', .died)
    | (disk', .raised e) => (disk', .raised e)
    | (disk', .data _) => (disk', readLocal parse disk')

/-- The cache after a history of calls. -/
def cacheAfter (parse : List B → Option D) (remote : Remote B) (history : List Transfer) :
    Option (List B) :=
  history.foldl (fun disk t => (getDataset parse remote t disk).1) none

end Implicit
