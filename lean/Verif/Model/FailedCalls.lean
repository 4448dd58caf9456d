import Verif.Model.ALSState
import Verif.Model.GpuState

/-!
# Calls that raise

`partial_fit_users` and `partial_fit_items` with arbitrary integer ids, and histories of calls in which every outcome
is recorded (the caller catches the exceptions).
-/

namespace Implicit

variable {R : Type} [LinearOrder R] [Field R] {f : Nat}

/-- `max(ids)` of a list of integers; `ValueError` for an empty list (`implicit/cpu/als.py:299`). -/
def pyMaxZ : List Int → Except Err Int
  | [] => .error .valueError
  | i :: is => .ok (is.foldl max i)

/-- The row that index `i` names in an array with `n` rows: negative indices count from the end; otherwise out of bounds. -/
def rowOf (n : Nat) (i : Int) : Option Nat :=
  if 0 ≤ i then (if i < n then some i.toNat else none)
  else (if -(n : Int) ≤ i then some (i + n).toNat else none)

/-- `user_factors = np.concatenate([user_factors, np.zeros((max_userid - users + 1, factors))])` if
`max_userid >= users` (`implicit/cpu/als.py:298-303`), for an integer `max_userid`. -/
def growToZ (maxId : Int) (l : List (Vec f R)) : List (Vec f R) :=
  if (l.length : Int) ≤ maxId then l ++ List.replicate (maxId - l.length + 1).toNat (fun _ => 0) else l

/-- `implicit/cpu/als.py:275-311`, `partial_fit_users`, with integer ids.  The recalculation uses the number of ids
only.  `user_factors[userids] = …` (306) checks every index before the first row is written; if one is out of bounds
the table has already been replaced by the longer one and the lines that drop the caches (309-310) are not reached. -/
def partialFitUsersZ (env : Env f R) (st : MFState f R) (ids : List Int) (userItems : SpRows R) :
    Except Err Unit × MFState f R :=
  if ids.length ≠ userItems.length then (.error .valueError, st)
  else
    match recalculateUser env st (.many (ids.map Int.toNat)) userItems with
    | (.error e, st) => (.error e, st)
    | (.ok xs, st) =>
      match pyMaxZ ids with
      | .error e => (.error e, st)
      | .ok maxId =>
        let grown := growToZ maxId st.user
        match ids.mapM (rowOf grown.length) with
        | none => (.error .indexError, { st with user := grown })
        | some rows => (.ok (), { st with user := assignRows grown (rows.zip xs), userNorms := none, XtX := none })

/-- `implicit/cpu/als.py:313-348`, `partial_fit_items`, with integer ids. -/
def partialFitItemsZ (env : Env f R) (st : MFState f R) (ids : List Int) (itemUsers : SpRows R) :
    Except Err Unit × MFState f R :=
  if ids.length ≠ itemUsers.length then (.error .valueError, st)
  else
    match recalculateItem env st (.many (ids.map Int.toNat)) itemUsers with
    | (.error e, st) => (.error e, st)
    | (.ok xs, st) =>
      match pyMaxZ ids with
      | .error e => (.error e, st)
      | .ok maxId =>
        let grown := growToZ maxId st.item
        match ids.mapM (rowOf grown.length) with
        | none => (.error .indexError, { st with item := grown })
        | some rows => (.ok (), { st with item := assignRows grown (rows.zip xs), itemNorms := none, YtY := none })

/-- The public calls of a CPU matrix factorisation model.  `invalidate` of `fit` is as in `fitModel`. -/
inductive MFCall (f : Nat) (R : Type) where
  | query (q : Query f R)
  | partialFitUsers (ids : List Int) (userItems : SpRows R)
  | partialFitItems (ids : List Int) (itemUsers : SpRows R)
  | fit (invalidate : Bool) (train : Nat → Factors f R → Except Err (Factors f R))
      (callback : Nat → List (Query f R)) (torn : Factors f R) (epochs : Nat)

/-- One call: what the caller sees (`none`: the method returns nothing) and the state afterwards. -/
def runCall (env : Env f R) (st : MFState f R) : MFCall f R → Except Err (Option (Result f R)) × MFState f R
  | .query q => ((runQuery env st q).1.map some, (runQuery env st q).2)
  | .partialFitUsers ids rows =>
    ((partialFitUsersZ env st ids rows).1.map fun _ => none, (partialFitUsersZ env st ids rows).2)
  | .partialFitItems ids rows =>
    ((partialFitItemsZ env st ids rows).1.map fun _ => none, (partialFitItemsZ env st ids rows).2)
  | .fit invalidate train callback torn epochs =>
    ((fitModel env invalidate train callback torn epochs st).1.map fun _ => none,
      (fitModel env invalidate train callback torn epochs st).2)

/-- A history of calls whose exceptions are caught: all outcomes, and the final state. -/
def runCalls (env : Env f R) : MFState f R → List (MFCall f R) →
    List (Except Err (Option (Result f R))) × MFState f R
  | st, [] => ([], st)
  | st, c :: cs =>
    ((runCall env st c).1 :: (runCalls env (runCall env st c).2 cs).1, (runCalls env (runCall env st c).2 cs).2)

/-! ## GPU models -/

/-- One call on a GPU model: what the caller sees and the state afterwards. -/
def gpuOneCall (env : GpuModelEnv f R) (st : GpuState f R) : GpuOp f R → Except Err (Option (Result f R)) × GpuState f R
  | .query q => ((gpuAsk env st q).1.map some, (gpuAsk env st q).2)
  | op => ((gpuOp env st op).1.map fun _ => none, (gpuOp env st op).2)

/-- A history of calls whose exceptions are caught: all outcomes, and the final state.  After undefined behaviour nothing is
known (`none`). -/
def gpuCalls (env : GpuModelEnv f R) : GpuState f R → List (GpuOp f R) →
    List (Except Err (Option (Result f R))) × Option (GpuState f R)
  | st, [] => ([], some st)
  | st, op :: ops =>
    if isUndefined (gpuOneCall env st op).1 then ([(gpuOneCall env st op).1], none)
    else ((gpuOneCall env st op).1 :: (gpuCalls env (gpuOneCall env st op).2 ops).1, (gpuCalls env (gpuOneCall env st op).2 ops).2)

end Implicit
