import Verif.Model.ALSState
import Verif.Model.GpuALS
import Verif.Model.GpuQuery
/-!
# GPU models as state: caches, recalculation, `partial_fit`, queries, histories

`implicit/gpu/als.py`, `implicit/gpu/bpr.py`, `implicit/gpu/matrix_factorization_base.py`.  A method is a
function from the state of the object to its outcome and the new state.  After undefined behaviour nothing is
known, so a history ends there.

Simplifications: exact arithmetic (also for half precision); allocation failures are left out; ids given to
`partial_fit_*` are below `2 ^ 31`; a matrix of interactions comes with its number of columns.
-/

namespace Implicit

variable {R : Type} [LinearOrder R] [Field R] {f : Nat}

/-- The class of the model. -/
inductive GpuKind where
  | als
  | bpr
  deriving DecidableEq

/-- External routines, constants and constructor parameters; `norm` is what `calculate_norms_kernel` computes
for a row, `eps` is `1e-10`, `tol` is `1e-20`. -/
structure GpuModelEnv (f : Nat) (R : Type) [LinearOrder R] [Field R] where
  kind : GpuKind
  knn : GpuEnv R
  norm : Vec f R → R
  eps : R
  tol : R
  p : GpuALSParams R

/-- State of a model (`implicit/gpu/matrix_factorization_base.py:25-32`, `implicit/gpu/als.py:76-79`); `half`: the
factor matrices have element type float16. -/
structure GpuState (f : Nat) (R : Type) where
  half : Bool
  user : List (Vec f R)
  item : List (Vec f R)
  userNorms : Option (List R)
  userNormsHost : Option (List R)
  itemNorms : Option (List R)
  itemNormsHost : Option (List R)
  YtY : Option (Mat f R)
  XtX : Option (Mat f R)

/-- A model with the given factors and empty caches. -/
def freshGpu (half : Bool) (m : Factors f R) : GpuState f R :=
  ⟨half, m.user, m.item, none, none, none, none, none, none⟩

/-- `user_norms` (`implicit/gpu/matrix_factorization_base.py:105-110`): the norms on the device, and what
`self._user_norms_host` holds afterwards. -/
def gpuUserNorms (env : GpuModelEnv f R) (st : GpuState f R) : GpuState f R :=
  match st.userNorms with
  | some _ => st
  | none =>
    let n := safeNorms env.norm env.eps st.user
    { st with userNorms := some n, userNormsHost := some n }

/-- `item_norms` (`implicit/gpu/matrix_factorization_base.py:112-117`). -/
def gpuItemNorms (env : GpuModelEnv f R) (st : GpuState f R) : GpuState f R :=
  match st.itemNorms with
  | some _ => st
  | none =>
    let n := safeNorms env.norm env.eps st.item
    { st with itemNorms := some n, itemNormsHost := some n }

/-- `YtY` (`implicit/gpu/als.py:283-288`): the Gram matrix including the regularisation. -/
def gpuYtY (env : GpuModelEnv f R) (st : GpuState f R) : Mat f R × GpuState f R :=
  match st.YtY with
  | some G => (G, st)
  | none =>
    let G := regularised (gram st.item) env.p.regularization
    (G, { st with YtY := some G })

/-- `XtX` (`implicit/gpu/als.py:290-295`). -/
def gpuXtX (env : GpuModelEnv f R) (st : GpuState f R) : Mat f R × GpuState f R :=
  match st.XtX with
  | some G => (G, st)
  | none =>
    let G := regularised (gram st.user) env.p.regularization
    (G, { st with XtX := some G })

/-- `recalculate_user` (`implicit/gpu/als.py:181-192`; BPR: `matrix_factorization_base.py:204-205`).  The sparse
matrix is copied to the device (which raises `IndexError` if it stores nothing) before `self.YtY` is read. -/
def gpuRecalcUser (env : GpuModelEnv f R) (st : GpuState f R) (count cols : Nat) (rows : SpRows R) :
    Except Err (List (Vec f R)) × GpuState f R :=
  match env.kind with
  | .bpr => (.error .notImplemented, st)
  | .als =>
    if rows.all List.isEmpty then (.error .indexError, st)
    else
      let (G, st) := gpuYtY env st
      (gpuRecalculateUser env.tol env.p G st.item count cols rows, st)

/-- `recalculate_item` (`implicit/gpu/als.py:194-204`). -/
def gpuRecalcItem (env : GpuModelEnv f R) (st : GpuState f R) (count cols : Nat) (rows : SpRows R) :
    Except Err (List (Vec f R)) × GpuState f R :=
  match env.kind with
  | .bpr => (.error .notImplemented, st)
  | .als =>
    if rows.all List.isEmpty then (.error .indexError, st)
    else
      let (G, st) := gpuXtX env st
      (gpuRecalculateUser env.tol env.p G st.user count cols rows, st)

/-- One iteration of the device loop of `assign_rows` (`implicit/gpu/matrix.cu:136-143`): element `j` of source row
`k`.  Rows that do not exist are undefined behaviour (see C46). -/
def gpuAssignCell (ids : List Int) (xs : List (Vec f R)) (l : List (Vec f R)) (e : Nat × Fin f) :
    Except Err (List (Vec f R)) :=
  match ids[e.1]?, xs[e.1]? with
  | some i, some x =>
    if i < 0 then .error .undefinedBehaviour
    else
      match l[i.toNat]? with
      | none => .error .undefinedBehaviour
      | some y => .ok (l.set i.toNat (Function.update y e.2 (x e.2)))
  | _, _ => .error .undefinedBehaviour

/-- The iterations of that loop. -/
def assignCells (f n : Nat) : List (Nat × Fin f) :=
  (List.range n).flatMap fun k => (List.finRange f).map fun j => (k, j)

/-- `self.user_factors.resize(max_userid + 1, factors)` if there are too few rows
(`implicit/gpu/als.py:228-233`). -/
def gpuGrow (maxId : Int) (l : List (Vec f R)) : List (Vec f R) :=
  if (l.length : Int) ≤ maxId then growTo maxId.toNat l else l

/-- `max(ids)`; `ValueError` for an empty list. -/
def pyMaxInt : List Int → Except Err Int
  | [] => .error .valueError
  | i :: is => .ok (is.foldl max i)

/-- `partial_fit_users` (`implicit/gpu/als.py:206-239`).  `order`: the order in which the device assigns the
elements.  Half precision factors cannot be assigned (`RuntimeError`), which is noticed after growing.  BPR has no
such method. -/
def gpuPartialFitUsers (env : GpuModelEnv f R) (order : List (Nat × Fin f)) (st : GpuState f R) (ids : List Int)
    (cols : Nat) (rows : SpRows R) : Except Err Unit × GpuState f R :=
  if env.kind = .bpr then (.error .attributeError, st)
  else if ids.length ≠ rows.length then (.error .valueError, st)
  else
    match gpuRecalcUser env st ids.length cols rows with
    | (.error e, st) => (.error e, st)
    | (.ok xs, st) =>
      match pyMaxInt ids with
      | .error e => (.error e, st)
      | .ok maxId =>
        let st := { st with user := gpuGrow maxId st.user }
        if st.half then (.error .runtimeError, st)
        else
          match order.foldlM (gpuAssignCell ids xs) st.user with
          | .error e => (.error e, st)
          | .ok u => (.ok (), { st with user := u, userNorms := none, userNormsHost := none, XtX := none })

/-- `partial_fit_items` (`implicit/gpu/als.py:241-275`). -/
def gpuPartialFitItems (env : GpuModelEnv f R) (order : List (Nat × Fin f)) (st : GpuState f R) (ids : List Int)
    (cols : Nat) (rows : SpRows R) : Except Err Unit × GpuState f R :=
  if env.kind = .bpr then (.error .attributeError, st)
  else if ids.length ≠ rows.length then (.error .valueError, st)
  else
    match gpuRecalcItem env st ids.length cols rows with
    | (.error e, st) => (.error e, st)
    | (.ok xs, st) =>
      match pyMaxInt ids with
      | .error e => (.error e, st)
      | .ok maxId =>
        let st := { st with item := gpuGrow maxId st.item }
        if st.half then (.error .runtimeError, st)
        else
          match order.foldlM (gpuAssignCell ids xs) st.item with
          | .error e => (.error e, st)
          | .ok u => (.ok (), { st with item := u, itemNorms := none, itemNormsHost := none, YtY := none })

/-! ## Queries -/

/-- The query methods with their arguments; `cols` is the number of columns of the given matrix. -/
inductive GpuAsk (R : Type) where
  | recommend (ids : Ids) (cols : Nat) (userItems : Option (SpRows R)) (N : Nat) (filterLiked : Bool)
      (filterItems : Option PyFilter) (recalculate : Bool) (items : Option (List Int))
  | similarItems (ids : Ids) (N : Nat) (filterItems : Option PyFilter) (items : Option (List Int))
  | similarItemsRecalc (ids : Ids) (cols : Nat) (itemUsers : SpRows R) (N : Nat) (filterItems : Option PyFilter)
      (items : Option (List Int))
  | similarUsers (ids : Ids) (N : Nat) (filterUsers : Option PyFilter) (users : Option (List Int))
  | recalculateUser (ids : Ids) (cols : Nat) (userItems : SpRows R)
  | recalculateItem (ids : Ids) (cols : Nat) (itemUsers : SpRows R)

/-- Restriction to `items` (`implicit/gpu/matrix_factorization_base.py:126-140,165-179`): without `items` the norms on
the device are used, with `items` those on the host. -/
def gpuRestrictBoth (factors : List (Vec f R)) (dev host : List R) (filterItems : Option PyFilter)
    (items : Option (List Int)) : Except Err (List (Vec f R) × List R × Option (List Nat)) :=
  match items with
  | none => .ok (factors, dev, none)
  | some _ => gpuRestrictSimilar factors host filterItems items

/-- `similar_users`, and `similar_items` without recalculation, from the caches
(`implicit/gpu/matrix_factorization_base.py:125-200`). -/
def gpuSimilarBoth (env : GpuEnv R) (factors : List (Vec f R)) (dev host : Option (List R)) (ids : Ids) (N : Nat)
    (filterItems : Option PyFilter) (items : Option (List Int)) : Except Err (Answer R) :=
  match dev, host with
  | some dev, some host => do
    let (fac, ns, its) ← gpuRestrictBoth factors dev host filterItems items
    let query ← gpuRows factors ids
    gpuSimilarWith env host ids query fac ns its N filterItems
  | _, _ => .error .typeError

/-- Run one query; the caches it needs are filled on the way. -/
def gpuAsk (env : GpuModelEnv f R) (st : GpuState f R) : GpuAsk R → Except Err (Result f R) × GpuState f R
  | .recommend ids cols userItems N filterLiked filterItems recalculate items =>
    -- `recalculate_user` is reached if the arguments pass the checks (44-49)
    match recalculate, checkUserItems ids userItems (filterLiked || recalculate), userItems with
    | true, .ok (), some rows =>
      match gpuRecalcUser env st ids.count cols rows with
      | (.error e, st) => (.error e, st)
      | (.ok xs, st) =>
        ((gpuRecommend env.knn ⟨st.user, st.item⟩ (fun _ => .ok xs) ids userItems N filterLiked filterItems true
          items).map .answer, st)
    | _, _, _ =>
      ((gpuRecommend env.knn ⟨st.user, st.item⟩ (fun _ => .error .notImplemented) ids userItems N filterLiked
        filterItems recalculate items).map .answer, st)
  | .similarItems ids N filterItems items =>
    let st := gpuItemNorms env st
    ((gpuSimilarBoth env.knn st.item st.itemNorms st.itemNormsHost ids N filterItems items).map .answer, st)
  | .similarItemsRecalc ids cols itemUsers N filterItems items =>
    let st := gpuItemNorms env st
    match st.itemNorms, st.itemNormsHost with
    | some dev, some host =>
      match gpuRestrictBoth st.item dev host filterItems items with
      | .error e => (.error e, st)
      | .ok (fac, ns, its) =>
        match gpuRecalcItem env st ids.count cols itemUsers with
        | (.error e, st) => (.error e, st)
        | (.ok query, st) =>
          ((gpuSimilarWith env.knn host ids query fac ns its N filterItems).map .answer, st)
    | _, _ => (.error .typeError, st)
  | .similarUsers ids N filterUsers users =>
    let st := gpuUserNorms env st
    ((gpuSimilarBoth env.knn st.user st.userNorms st.userNormsHost ids N filterUsers users).map .answer, st)
  | .recalculateUser ids cols rows =>
    ((gpuRecalcUser env st ids.count cols rows).1.map .vectors, (gpuRecalcUser env st ids.count cols rows).2)
  | .recalculateItem ids cols rows =>
    ((gpuRecalcItem env st ids.count cols rows).1.map .vectors, (gpuRecalcItem env st ids.count cols rows).2)

/-- A sequence of queries: their outcomes and the final state. -/
def gpuAsks (env : GpuModelEnv f R) : GpuState f R → List (GpuAsk R) →
    List (Except Err (Result f R)) × GpuState f R
  | st, [] => ([], st)
  | st, q :: qs =>
    let r := gpuAsk env st q
    let rest := gpuAsks env r.2 qs
    (r.1 :: rest.1, rest.2)

/-! ## Training and histories -/

/-- The outcome is undefined behaviour. -/
def isUndefined {α : Type} : Except Err α → Bool
  | .error .undefinedBehaviour => true
  | _ => false

/-- The epochs of `fit` (`implicit/gpu/als.py:155-176`, `implicit/gpu/bpr.py:133-158`): epoch `i` replaces the
contents of the factor matrices, then the callback runs its queries (and catches exceptions).  If the epoch
raises, the matrices hold `torn`. -/
def gpuFitEpochs (env : GpuModelEnv f R) (train : Nat → Factors f R → Except Err (Factors f R))
    (callback : Nat → List (GpuAsk R)) (torn : Factors f R) :
    Nat → Nat → GpuState f R → Except Err Unit × GpuState f R
  | _, 0, st => (.ok (), st)
  | i, n + 1, st =>
    match train i ⟨st.user, st.item⟩ with
    | .error e => (.error e, { st with user := torn.user, item := torn.item })
    | .ok m =>
      let r := gpuAsks env { st with user := m.user, item := m.item } (callback i)
      if r.1.any isUndefined then (.error .undefinedBehaviour, r.2)
      else gpuFitEpochs env train callback torn (i + 1) n r.2

/-- What `fit` drops before the epochs: everything in `implicit/gpu/als.py:140-143`, only the norms on the device
in `implicit/gpu/bpr.py:124`. -/
def gpuInvalidate (env : GpuModelEnv f R) (st : GpuState f R) : GpuState f R :=
  match env.kind with
  | .als => { st with
      userNorms := none, userNormsHost := none, itemNorms := none, itemNormsHost := none, YtY := none, XtX := none }
  | .bpr => { st with userNorms := none, itemNorms := none }

/-- `fit` (`implicit/gpu/als.py:81-179`, `implicit/gpu/bpr.py:69-158`). -/
def gpuFitCall (env : GpuModelEnv f R) (train : Nat → Factors f R → Except Err (Factors f R))
    (callback : Nat → List (GpuAsk R)) (torn : Factors f R) (epochs : Nat) (st : GpuState f R) :
    Except Err Unit × GpuState f R :=
  gpuFitEpochs env train callback torn 0 epochs (gpuInvalidate env st)

/-- Public operations on a model.  `pickle`: continue with `pickle.loads(pickle.dumps(model))`; `viaCpu`: continue
with `model.to_cpu().to_gpu()`. -/
inductive GpuOp (f : Nat) (R : Type) where
  | fit (train : Nat → Factors f R → Except Err (Factors f R)) (callback : Nat → List (GpuAsk R))
      (torn : Factors f R) (epochs : Nat)
  | partialFitUsers (order : List (Nat × Fin f)) (ids : List Int) (cols : Nat) (rows : SpRows R)
  | partialFitItems (order : List (Nat × Fin f)) (ids : List Int) (cols : Nat) (rows : SpRows R)
  | query (q : GpuAsk R)
  | pickle
  | viaCpu

/-- `__getstate__` and `__setstate__` as far as the caches are concerned
(`implicit/gpu/matrix_factorization_base.py:217-231`, `implicit/gpu/als.py:312-325`): the norms are dropped, the Gram
matrices are kept.  An empty matrix cannot be copied (see C39). -/
def gpuPickle (st : GpuState f R) : Except Err Unit × GpuState f R :=
  if st.user.isEmpty || st.item.isEmpty then (.error .indexError, st)
  else (.ok (), { st with userNorms := none, userNormsHost := none, itemNorms := none, itemNormsHost := none })

/-- `to_cpu().to_gpu()` (`implicit/gpu/als.py:297-310`, `implicit/cpu/als.py:438-455`): a new object with copies of
the factors. -/
def gpuViaCpu (st : GpuState f R) : Except Err Unit × GpuState f R :=
  if st.user.isEmpty || st.item.isEmpty then (.error .indexError, st)
  else (.ok (), freshGpu st.half ⟨st.user, st.item⟩)

/-- One operation: outcome and state afterwards. -/
def gpuOp (env : GpuModelEnv f R) (st : GpuState f R) : GpuOp f R → Except Err Unit × GpuState f R
  | .fit train callback torn epochs => gpuFitCall env train callback torn epochs st
  | .partialFitUsers order ids cols rows => gpuPartialFitUsers env order st ids cols rows
  | .partialFitItems order ids cols rows => gpuPartialFitItems env order st ids cols rows
  | .query q => ((gpuAsk env st q).1.map fun _ => (), (gpuAsk env st q).2)
  | .pickle => gpuPickle st
  | .viaCpu => gpuViaCpu st

/-- A history: exceptions are caught by the caller, undefined behaviour ends it (`none`). -/
def gpuRun (env : GpuModelEnv f R) : GpuState f R → List (GpuOp f R) → Option (GpuState f R)
  | st, [] => some st
  | st, op :: ops =>
    if isUndefined (gpuOp env st op).1 then none else gpuRun env (gpuOp env st op).2 ops

end Implicit
