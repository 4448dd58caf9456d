import Verif.Model.Augment
/-!
# Approximate models as state: `fit` and histories (`implicit/ann/*.py`)

An index is the list of the vectors it contains with their identifiers; `search` is the index library.  The factors are
those of the wrapped model, see `MFState`.  Left out: conversions between float types, index parameters other than
`nlist`, failures of Annoy and NMSLib while they build an index.
-/

namespace Implicit

variable {f : Nat}

/-- What an index contains. -/
abbrev AnnIndex (n : Nat) := List (Nat × Vec n ℝ)

/-- Vectors numbered from zero: `for i, row in enumerate(rows)`, and the default numbering of NMSLib and Faiss. -/
def numbered {n : Nat} (rows : List (Vec n ℝ)) : AnnIndex n := rows.zipIdx.map fun e => (e.2, e.1)

/-- The wrapped model's environment, `np.linalg.norm`, the index library, and the constructor parameters. -/
structure AnnEnv (f : Nat) where
  env : Env f ℝ
  norm : (n : Nat) → Vec n ℝ → ℝ
  search : (n : Nat) → AnnIndex n → Vec n ℝ → Nat → List (Int × ℝ)
  approximateSimilar : Bool
  approximateRecommend : Bool

/-- State of an approximate model; `n` is the dimension of the vectors in `recommend_index`. -/
structure AnnState (f n : Nat) where
  inner : MFState f ℝ
  similarIndex : Option (AnnIndex f)
  recommendIndex : Option (AnnIndex n)
  maxNorm : Option ℝ

/-- `self.model.fit(...)`: any outcome and any new state of the wrapped model. -/
abbrev InnerFit (f : Nat) := MFState f ℝ → Except Err Unit × MFState f ℝ

/-- The recommendation index of Annoy (`implicit/ann/annoy.py:86-93`) and NMSLib (`implicit/ann/nmslib.py:106-112`). -/
noncomputable def buildAugmented (E : AnnEnv f) (st : AnnState f (f + 1)) : Except Err Unit × AnnState f (f + 1) :=
  if E.approximateRecommend then
    match augment (E.norm f) st.inner.item with
    | .error e => (.error e, st)
    | .ok (mx, ext) => (.ok (), { st with maxNorm := some mx, recommendIndex := some (numbered ext) })
  else (.ok (), st)

/-- The two libraries that search the augmented vectors. -/
inductive AnnKind where
  | annoy
  | nmslib
  deriving DecidableEq

/-- What the index of similar items contains: every item (`implicit/ann/annoy.py:80-83`); NMSLib leaves out zero vectors
and keeps the identifiers of the others (`implicit/ann/nmslib.py:91-101`). -/
noncomputable def similarEntries (kind : AnnKind) (E : AnnEnv f) (item : List (Vec f ℝ)) : AnnIndex f :=
  match kind with
  | .annoy => numbered item
  | .nmslib => (numbered item).filter fun e => decide (E.norm f e.2 ≠ 0)

/-- `AnnoyModel.fit` (`implicit/ann/annoy.py:65-93`) and `NMSLibModel.fit` (`implicit/ann/nmslib.py:74-112`). -/
noncomputable def annFit (kind : AnnKind) (E : AnnEnv f) (fit : InnerFit f) (st : AnnState f (f + 1)) :
    Except Err Unit × AnnState f (f + 1) :=
  match fit st.inner with
  | (.error e, m) => (.error e, { st with inner := m })
  | (.ok _, m) =>
    let st := { st with inner := m }
    buildAugmented E
      (if E.approximateSimilar then { st with similarIndex := some (similarEntries kind E m.item) } else st)

/-- `index.train(...)`: Faiss needs at least as many vectors as clusters. -/
def faissTrain {n : Nat} (nlist : Nat) (rows : List (Vec n ℝ)) : Except Err (AnnIndex n) :=
  if rows.length < nlist then .error .runtimeError else .ok (numbered rows)

/-- The rows of the index of similar items (`implicit/ann/faiss.py:111-116`). -/
noncomputable def faissNormalized (E : AnnEnv f) (rows : List (Vec f ℝ)) : List (Vec f ℝ) :=
  rows.map fun v j => v j / (if E.norm f v = 0 then E.env.eps else E.norm f v)

/-- `implicit/ann/faiss.py:77-130`, `FaissModel.fit`. -/
noncomputable def faissFit (E : AnnEnv f) (nlist : Nat) (fit : InnerFit f) (st : AnnState f f) :
    Except Err Unit × AnnState f f :=
  match fit st.inner with
  | (.error e, m) => (.error e, { st with inner := m })
  | (.ok _, m) =>
    let st := { st with inner := m }
    let r : Except Err Unit × AnnState f f :=
      if E.approximateRecommend then
        match faissTrain nlist m.item with
        | .error e => (.error e, st)
        | .ok idx => (.ok (), { st with recommendIndex := some idx })
      else (.ok (), st)
    match r with
    | (.error e, st) => (.error e, st)
    | (.ok _, st) =>
      if E.approximateSimilar then
        match faissTrain nlist (faissNormalized E m.item) with
        | .error e => (.error e, st)
        | .ok idx => (.ok (), { st with similarIndex := some idx })
      else (.ok (), st)

/-! ## Queries -/

/-- Arguments of `recommend`. -/
structure AnnRecommendArgs where
  ids : Ids
  userItems : Option (SpRows ℝ)
  N : Nat
  filterLiked : Bool
  filterItems : Option PyFilter
  recalculate : Bool
  items : Option (List Int)

/-- Arguments of `similar_items`. -/
structure AnnSimilarArgs where
  ids : Ids
  N : Nat
  recalculate : Bool
  itemUsers : Option (SpRows ℝ)
  filterItems : Option PyFilter
  items : Option (List Int)

/-- A query that searches an index.  Searching `None` raises `AttributeError`, after the checks that come before the
search (simplified for batches: after the checks for all of them). -/
def withIndex {α : Type} {n : Nat} (E : AnnEnv f) (index : Option (AnnIndex n)) (approximate : Bool)
    (query : (Vec n ℝ → Nat → List (Int × ℝ)) → Except Err α × MFState f ℝ) : Except Err α × MFState f ℝ :=
  match index with
  | some idx => query (E.search n idx)
  | none =>
    match query fun _ _ => [] with
    | (.ok a, st) => (if approximate then .error .attributeError else .ok a, st)
    | (.error e, st) => (.error e, st)

/-- How a distance becomes a score. -/
noncomputable def AnnKind.score : AnnKind → ℝ → ℝ → ℝ
  | .annoy => annoyScore
  | .nmslib => nmslibScore

/-- `AnnoyModel.recommend` and `NMSLibModel.recommend` on the state. -/
noncomputable def annRecommendOn (kind : AnnKind) (E : AnnEnv f) (st : AnnState f (f + 1)) (a : AnnRecommendArgs) :
    Except Err (AnnAnswer ℝ) × MFState f ℝ :=
  withIndex E st.recommendIndex E.approximateRecommend fun search =>
    annRecommend E.env search (E.norm (f + 1)) (st.maxNorm.getD 0) kind.score E.approximateRecommend st.inner a.ids
      a.userItems a.N a.filterLiked a.filterItems a.recalculate a.items

/-- `similar_items` of these two on the state. -/
noncomputable def annSimilarOn (kind : AnnKind) (E : AnnEnv f) (st : AnnState f (f + 1)) (a : AnnSimilarArgs) :
    Except Err (AnnAnswer ℝ) × MFState f ℝ :=
  withIndex E st.similarIndex E.approximateSimilar fun search =>
    match kind with
    | .annoy => annoySimilar E.env search E.approximateSimilar st.inner a.ids a.N a.recalculate a.itemUsers a.filterItems
        a.items
    | .nmslib => nmslibSimilar E.env search E.approximateSimilar st.inner a.ids a.N a.recalculate a.itemUsers a.filterItems
        a.items

/-- `FaissModel.recommend` on the state (CPU index). -/
noncomputable def faissRecommendOn (E : AnnEnv f) (st : AnnState f f) (a : AnnRecommendArgs) :
    Except Err (AnnAnswer ℝ) × MFState f ℝ :=
  withIndex E st.recommendIndex E.approximateRecommend fun search =>
    faissRecommend E.env search E.approximateRecommend false st.inner a.ids a.userItems a.N a.filterLiked a.filterItems
      a.recalculate a.items

/-- `FaissModel.similar_items` on the state (CPU index). -/
noncomputable def faissSimilarOn (E : AnnEnv f) (st : AnnState f f) (a : AnnSimilarArgs) :
    Except Err (AnnAnswer ℝ) × MFState f ℝ :=
  withIndex E st.similarIndex E.approximateSimilar fun search =>
    faissSimilar E.env search E.approximateSimilar false st.inner a.ids a.N a.recalculate a.itemUsers a.filterItems a.items

/-! ## Histories -/

/-- Public operations; `onModel` is a direct use of the attribute `model`. -/
inductive AnnOp (f : Nat) where
  | fit (inner : InnerFit f)
  | recommend (a : AnnRecommendArgs)
  | similarItems (a : AnnSimilarArgs)
  | onModel (op : Op f ℝ)

/-- State after one operation on an Annoy or NMSLib model. -/
noncomputable def annStep (kind : AnnKind) (E : AnnEnv f) (st : AnnState f (f + 1)) : AnnOp f → AnnState f (f + 1)
  | .fit inner => (annFit kind E inner st).2
  | .recommend a => { st with inner := (annRecommendOn kind E st a).2 }
  | .similarItems a => { st with inner := (annSimilarOn kind E st a).2 }
  | .onModel op => { st with inner := runOp E.env st.inner op }

/-- State after one operation on a Faiss model. -/
noncomputable def faissStep (E : AnnEnv f) (nlist : Nat) (st : AnnState f f) : AnnOp f → AnnState f f
  | .fit inner => (faissFit E nlist inner st).2
  | .recommend a => { st with inner := (faissRecommendOn E st a).2 }
  | .similarItems a => { st with inner := (faissSimilarOn E st a).2 }
  | .onModel op => { st with inner := runOp E.env st.inner op }

end Implicit
