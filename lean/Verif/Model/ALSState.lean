import Verif.Model.ALS
/-!
# Model objects as state: caches, recalculation, `partial_fit`, `explain`, queries, histories

`implicit/cpu/als.py`, `implicit/cpu/matrix_factorization_base.py`.  A method is a function from the
state of the object to its outcome and the new state; the state is kept when an exception is raised.
-/

namespace Implicit

variable {R : Type} [LinearOrder R] [Field R] {f : Nat}

/-- External routines and constants: heaps, `-np.finfo(dtype).max`, `np.linalg.norm`, `1e-10`,
LAPACK, `1e-20`, and the constructor parameters of the model. -/
structure Env (f : Nat) (R : Type) [LinearOrder R] [Field R] where
  H : HeapImpl (R × Nat) pairLt
  neginf : R
  norm : Vec f R → R
  eps : R
  S : Solver f R
  tol : R
  p : ALSParams R

/-- State of a fitted (or freshly initialised) model: factors and caches
(`implicit/cpu/matrix_factorization_base.py:27-31`, `implicit/cpu/als.py:92-94`). -/
structure MFState (f : Nat) (R : Type) where
  user : List (Vec f R)
  item : List (Vec f R)
  userNorms : Option (List R)
  itemNorms : Option (List R)
  YtY : Option (Mat f R)
  XtX : Option (Mat f R)

/-- A model with the given factors and empty caches.  `fit` draws initial factors only if there are
none yet (`implicit/cpu/als.py:143-146`), so the first `fit` behaves like `fit` on this state. -/
def freshState (m : Factors f R) : MFState f R := ⟨m.user, m.item, none, none, none, none⟩

/-- `implicit/cpu/matrix_factorization_base.py:232-238`, `user_norms`. -/
def getUserNorms (env : Env f R) (st : MFState f R) : List R × MFState f R :=
  match st.userNorms with
  | some n => (n, st)
  | none =>
    let n := safeNorms env.norm env.eps st.user
    (n, { st with userNorms := some n })

/-- `implicit/cpu/matrix_factorization_base.py:240-246`, `item_norms`. -/
def getItemNorms (env : Env f R) (st : MFState f R) : List R × MFState f R :=
  match st.itemNorms with
  | some n => (n, st)
  | none =>
    let n := safeNorms env.norm env.eps st.item
    (n, { st with itemNorms := some n })

/-- `implicit/cpu/als.py:424-429`, `YtY`. -/
def getYtY (st : MFState f R) : Mat f R × MFState f R :=
  match st.YtY with
  | some G => (G, st)
  | none => (gram st.item, { st with YtY := some (gram st.item) })

/-- `implicit/cpu/als.py:431-436`, `XtX`. -/
def getXtX (st : MFState f R) : Mat f R × MFState f R :=
  match st.XtX with
  | some G => (G, st)
  | none => (gram st.user, { st with XtX := some (gram st.user) })

/-- `implicit/cpu/als.py:203-240`, `recalculate_user`. -/
def recalculateUser (env : Env f R) (st : MFState f R) (ids : Ids) (userItems : SpRows R) :
    Except Err (List (Vec f R)) × MFState f R :=
  if userItems.length ≠ ids.count then (.error .valueError, st)
  else
    let (G, st) := getYtY st
    (leastSquaresNative env.S G (applyAlpha env.p.alpha userItems) ids.count st.item
      env.p.regularization, st)

/-- `implicit/cpu/als.py:242-273`, `recalculate_item` (no check of the number of rows). -/
def recalculateItem (env : Env f R) (st : MFState f R) (ids : Ids) (itemUsers : SpRows R) :
    Except Err (List (Vec f R)) × MFState f R :=
  let (G, st) := getXtX st
  (leastSquaresNative env.S G (applyAlpha env.p.alpha itemUsers) ids.count st.user
    env.p.regularization, st)

/-- `np.concatenate([factors, np.zeros((max_id - n + 1, f))])` if the table is too short
(`implicit/cpu/als.py:298-303`). -/
def growTo (maxId : Nat) (l : List (Vec f R)) : List (Vec f R) :=
  if l.length ≤ maxId then l ++ List.replicate (maxId - l.length + 1) (fun _ => 0) else l

/-- `factors[ids] = values` (`implicit/cpu/als.py:306`): rows are assigned in order. -/
def assignRows (l : List (Vec f R)) : List (Nat × Vec f R) → List (Vec f R)
  | [] => l
  | (i, x) :: rest => assignRows (l.set i x) rest

/-- `max(ids)`; `ValueError` for an empty list. -/
def pyMax : List Nat → Except Err Nat
  | [] => .error .valueError
  | i :: is => .ok (is.foldl max i)

/-- `implicit/cpu/als.py:275-311`, `partial_fit_users`. -/
def partialFitUsers (env : Env f R) (st : MFState f R) (ids : List Nat) (userItems : SpRows R) :
    Except Err Unit × MFState f R :=
  if ids.length ≠ userItems.length then (.error .valueError, st)
  else
    match recalculateUser env st (.many ids) userItems with
    | (.error e, st) => (.error e, st)
    | (.ok xs, st) =>
      match pyMax ids with
      | .error e => (.error e, st)
      | .ok maxId =>
        (.ok (), { st with
          user := assignRows (growTo maxId st.user) (ids.zip xs), userNorms := none, XtX := none })

/-- `implicit/cpu/als.py:313-348`, `partial_fit_items`. -/
def partialFitItems (env : Env f R) (st : MFState f R) (ids : List Nat) (itemUsers : SpRows R) :
    Except Err Unit × MFState f R :=
  if ids.length ≠ itemUsers.length then (.error .valueError, st)
  else
    match recalculateItem env st (.many ids) itemUsers with
    | (.error e, st) => (.error e, st)
    | (.ok xs, st) =>
      match pyMax ids with
      | .error e => (.error e, st)
      | .ok maxId =>
        (.ok (), { st with
          item := assignRows (growTo maxId st.item) (ids.zip xs), itemNorms := none, YtY := none })

/-! ## `explain` -/

/-- One round of the contribution loop: `heappush` while there is room, else `heappushpop` (push,
then drop the smallest) (`implicit/cpu/als.py:406-410`).  Python's `heapq` on tuples is a heap of
pairs like the C++ one; `h_len` is the length of `h`. -/
def keepLargest {α : Type} {lt : α → α → Prop} (H : HeapImpl α lt) (N : Nat) (h : List α) (c : α) :
    List α :=
  if h.length < N then H.push h c else H.pop (H.push h c)

/-- `[heapq.heappop(h) for i in range(len(h))]` (`implicit/cpu/als.py:412`). -/
def drainHeap {α : Type} {lt : α → α → Prop} (H : HeapImpl α lt) : Nat → List α → List α
  | 0, _ => []
  | _ + 1, [] => []
  | n + 1, m :: t => m :: drainHeap H n (H.pop (m :: t))

/-- Outcome of `explain`: total score, `(item, contribution)` list, and `user_weights`, represented by
the matrix it factorises. -/
structure Explanation (f : Nat) (R : Type) where
  total : R
  contributions : List (Nat × R)
  weights : Mat f R

/-- The contributions `(score, item)` of the stored entries that are not negative
(`implicit/cpu/als.py:395-405`). -/
def explainScores (w : Vec f R) (Y : List (Vec f R)) : List (Nat × R) → Except Err (List (R × Nat))
  | [] => .ok []
  | (i, c) :: row =>
    if c < 0 then explainScores w Y row
    else
      match Y[i]? with
      | none => .error .indexError
      | some y => do pure ((dot w y * c, i) :: (← explainScores w Y row))

/-- `implicit/cpu/als.py:350-415`, `explain`.  `cho_factor`/`cho_solve` are represented by the solver:
solving with the factorisation of `A` is solving the system `A`. -/
def explain (env : Env f R) (st : MFState f R) (userid : Nat) (userItems : SpRows R) (itemid : Nat)
    (weights : Option (Mat f R)) (N : Nat) : Except Err (Explanation f R) × MFState f R :=
  match (applyAlpha env.p.alpha userItems)[userid]? with
  -- `self.YtY` is evaluated before the row is read
  | none => (.error .indexError, if weights.isNone then (getYtY st).2 else st)
  | some row =>
    let GA : Except Err (Mat f R) × MFState f R :=
      match weights with
      | some A => (.ok A, st)
      | none =>
        let (G, st) := getYtY st
        ((rowEntries .indexError st.item row).map
          fun es => (linearEquation G env.p.regularization es).1, st)
    (do
      let A ← GA.1
      let seed ← match st.item[itemid]? with
        | none => .error .indexError
        | some y => .ok y
      let w ← match env.S.solve A seed with
        | none => .error .valueError
        | some w => .ok w
      let scores ← explainScores w st.item row
      let h := scores.foldl (keepLargest env.H N) []
      pure ⟨(scores.map Prod.fst).sum,
        ((drainHeap env.H h.length h).map fun c => (c.2, c.1)).reverse, A⟩, GA.2)

/-! ## Queries -/

/-- The query methods with their arguments. -/
inductive Query (f : Nat) (R : Type) where
  | recommend (ids : Ids) (userItems : Option (SpRows R)) (N : Nat) (filterLiked : Bool)
      (filterItems : Option PyFilter) (recalculate : Bool) (items : Option (List Int))
  | similarItems (ids : Ids) (N : Nat) (filterItems : Option PyFilter) (items : Option (List Int))
  | similarItemsRecalc (ids : Ids) (itemUsers : SpRows R) (N : Nat) (filterItems : Option PyFilter)
      (items : Option (List Int))
  | similarUsers (ids : Ids) (N : Nat) (filterUsers : Option PyFilter) (users : Option (List Int))
  | recalculateUser (ids : Ids) (userItems : SpRows R)
  | recalculateItem (ids : Ids) (itemUsers : SpRows R)
  | explain (userid : Nat) (userItems : SpRows R) (itemid : Nat) (weights : Option (Mat f R)) (N : Nat)

/-- What a query returns. -/
inductive Result (f : Nat) (R : Type) where
  | answer (a : Answer R)
  | vectors (xs : List (Vec f R))
  | explanation (e : Explanation f R)

/-- Run one query; the caches it needs are filled on the way. -/
def runQuery (env : Env f R) (st : MFState f R) : Query f R → Except Err (Result f R) × MFState f R
  | .recommend ids userItems N filterLiked filterItems recalculate items =>
    -- `recalculate_user` is reached if the arguments pass the checks of `recommend` (44-51)
    let reached := recalculate && (checkUserItems ids userItems (filterLiked || recalculate)).isOkB
    let st' := if reached then (getYtY st).2 else st
    ((Implicit.recommend env.H env.neginf ⟨st.user, st.item⟩
      (fun rows => (recalculateUser env st ids rows).1) ids userItems N filterLiked filterItems
      recalculate items).map .answer, st')
  | .similarItems ids N filterItems items =>
    -- the item factor is looked up (and may raise `IndexError`) before the norms are computed
    if (gather st.item ids.toList).isOkB then
      let (norms, st) := getItemNorms env st
      ((similar env.H env.neginf st.item norms ids N filterItems items).map .answer, st)
    else (.error .indexError, st)
  | .similarItemsRecalc ids itemUsers N filterItems items =>
    match recalculateItem env st ids itemUsers with
    | (.error e, st) => (.error e, st)
    | (.ok query, st) =>
      let (norms, st) := getItemNorms env st
      ((similarRecalc env.H env.neginf env.norm env.eps st.item norms (fun _ => .ok query) itemUsers
        ids N filterItems items).map .answer, st)
  | .similarUsers ids N filterUsers users =>
    let (norms, st) := getUserNorms env st
    ((similar env.H env.neginf st.user norms ids N filterUsers users).map .answer, st)
  | .recalculateUser ids userItems =>
    ((Implicit.recalculateUser env st ids userItems).1.map .vectors,
      (Implicit.recalculateUser env st ids userItems).2)
  | .recalculateItem ids itemUsers =>
    ((Implicit.recalculateItem env st ids itemUsers).1.map .vectors,
      (Implicit.recalculateItem env st ids itemUsers).2)
  | .explain userid userItems itemid weights N =>
    ((Implicit.explain env st userid userItems itemid weights N).1.map .explanation,
      (Implicit.explain env st userid userItems itemid weights N).2)

/-- A sequence of queries: their outcomes and the final state. -/
def runQueries (env : Env f R) : MFState f R → List (Query f R) →
    List (Except Err (Result f R)) × MFState f R
  | st, [] => ([], st)
  | st, q :: qs =>
    let r := runQuery env st q
    let rest := runQueries env r.2 qs
    (r.1 :: rest.1, rest.2)

/-! ## Training and histories -/

/-- The epochs of a `fit` (`implicit/cpu/als.py:161-196`, `implicit/cpu/bpr.pyx:190-205`,
`implicit/cpu/lmf.pyx:178-197`): epoch `i` replaces the contents of the factor arrays, then the
callback runs its queries on the model.  If the epoch raises, the arrays hold `torn`. -/
def fitEpochs (env : Env f R) (train : Nat → Factors f R → Except Err (Factors f R))
    (callback : Nat → List (Query f R)) (torn : Factors f R) :
    Nat → Nat → MFState f R → Except Err Unit × MFState f R
  | _, 0, st => (.ok (), st)
  | i, n + 1, st =>
    match train i ⟨st.user, st.item⟩ with
    | .error e => (.error e, { st with user := torn.user, item := torn.item })
    | .ok m =>
      fitEpochs env train callback torn (i + 1) n
        (runQueries env { st with user := m.user, item := m.item } (callback i)).2

/-- `fit` of the CPU matrix factorisation models.  `invalidate` says whether cached values are dropped
before the epochs: yes in `implicit/cpu/als.py:150-153` and `implicit/cpu/bpr.pyx:176`, no in
`implicit/cpu/lmf.pyx`.  The NaN check at the end is modelled separately (`checkFitErrors`). -/
def fitModel (env : Env f R) (invalidate : Bool)
    (train : Nat → Factors f R → Except Err (Factors f R)) (callback : Nat → List (Query f R))
    (torn : Factors f R) (epochs : Nat) (st : MFState f R) : Except Err Unit × MFState f R :=
  let st := if invalidate then { st with userNorms := none, itemNorms := none, YtY := none, XtX := none }
    else st
  fitEpochs env train callback torn 0 epochs st

/-- One ALS epoch on the data `userItems` with `cols` columns (`implicit/cpu/als.py:132-136,163-176`). -/
def alsTrain (env : Env f R) (cols : Nat) (userItems : SpRows R) :
    Nat → Factors f R → Except Err (Factors f R) :=
  let Cui := applyAlpha env.p.alpha userItems
  fun _ m => alsIteration (alsSolver env.S env.tol env.p) Cui (transposeRows cols Cui)
    env.p.regularization m

/-- Public operations on a model. -/
inductive Op (f : Nat) (R : Type) where
  | fit (invalidate : Bool) (train : Nat → Factors f R → Except Err (Factors f R))
      (callback : Nat → List (Query f R)) (torn : Factors f R) (epochs : Nat)
  | partialFitUsers (ids : List Nat) (userItems : SpRows R)
  | partialFitItems (ids : List Nat) (itemUsers : SpRows R)
  | query (q : Query f R)

/-- State after one operation (whether it returns or raises). -/
def runOp (env : Env f R) (st : MFState f R) : Op f R → MFState f R
  | .fit invalidate train callback torn epochs =>
    (fitModel env invalidate train callback torn epochs st).2
  | .partialFitUsers ids rows => (partialFitUsers env st ids rows).2
  | .partialFitItems ids rows => (partialFitItems env st ids rows).2
  | .query q => (runQuery env st q).2

/-- State after a history of operations. -/
def runOps (env : Env f R) (st : MFState f R) (ops : List (Op f R)) : MFState f R :=
  ops.foldl (runOp env) st

end Implicit
