import Verif.Model.Threads
import Verif.Model.ALSState
/-!
# Factor models on the CPU used by several threads

`implicit/cpu/matrix_factorization_base.py`, `implicit/cpu/als.py`.  Attributes of the model are references: `self.user_factors` and
`self._item_norms` name arrays which other threads may hold too and which are changed in place.  Reading or writing an attribute,
reading an array and storing a row of it are one step each.
-/

namespace Implicit

variable {R : Type} [LinearOrder R] [Field R] {f : Nat}

/-- Users or items. -/
inductive Side where
  | user
  | item
deriving DecidableEq, Repr

/-- The other one. -/
def Side.other : Side → Side
  | .user => .item
  | .item => .user

/-- The arrays created so far and the attributes of the model.
`tabs d`, `cur d`: factor matrices of side `d` and the number of the one that `self.user_factors` (`self.item_factors`) names;
`arrays d`, `norms d`: the same for `self._user_norms` (`self._item_norms`), which can be `None`;
`gram d`: `self._XtX` (`self._YtY`), an array that is never written after its creation. -/
structure Shared (f : Nat) (R : Type) where
  tabs : Side → List (List (Vec f R))
  cur : Side → Nat
  arrays : Side → List (List R)
  norms : Side → Option Nat
  gram : Side → Option (Mat f R)

/-- The attributes of a model before the threads start. -/
def Shared.start (st : MFState f R) : Shared f R where
  tabs := fun | .user => [st.user] | .item => [st.item]
  cur := fun _ => 0
  arrays := fun | .user => st.userNorms.toList | .item => st.itemNorms.toList
  norms := fun | .user => st.userNorms.map fun _ => 0 | .item => st.itemNorms.map fun _ => 0
  gram := fun | .user => st.XtX | .item => st.YtY

/-- The contents of factor matrix number `p`. -/
def Shared.tab (s : Shared f R) (d : Side) (p : Nat) : List (Vec f R) := (s.tabs d).getD p []

/-- The contents of array of norms number `p`. -/
def Shared.array (s : Shared f R) (d : Side) (p : Nat) : List R := (s.arrays d).getD p []

abbrev Thread (f : Nat) (R : Type) (α : Type) := Prog (Shared f R) (Except Err α)

/-- `self._item_norms = np.linalg.norm(self.item_factors, axis=-1)`: a new array, and the attribute names it. -/
def Shared.publish (s : Shared f R) (d : Side) (a : List R) : Shared f R :=
  { s with arrays := Function.update s.arrays d (s.arrays d ++ [a]),
           norms := Function.update s.norms d (some (s.arrays d).length) }

/-- `array[mask] = eps` in place. -/
def patchNorms (eps : R) (mask : List Bool) (a : List R) : List R := List.zipWith (fun x b => if b then eps else x) a mask

/-- Replace array number `p`. -/
def Shared.setArray (s : Shared f R) (d : Side) (p : Nat) (a : List R) : Shared f R :=
  { s with arrays := Function.update s.arrays d ((s.arrays d).set p a) }

/-- What a property of the model returns when the attribute is read at the end: `None` makes the use of the value fail. -/
def notNone {α : Type} : Option α → Except Err α
  | some a => .ok a
  | none => .error .typeError

/-- `self._item_norms[self._item_norms == 0] = 1e-10` (`implicit/cpu/matrix_factorization_base.py:237,245`): the array to be written,
then the array to be compared, then the store.  `None[...]` is a `TypeError`; `array[None == 0]` stores nothing; a mask of another
length is an `IndexError`. -/
def fixNorms (eps : R) (d : Side) : Thread f R Unit :=
  (Prog.read fun s => notNone (s.norms d)).andThen fun p =>
  (Prog.read fun s => (s.norms d).map fun q => (s.array d q).map fun x => decide (x = 0)).bind fun
    | none => .done (.ok ())
    | some mask => .atomic fun s =>
        if (s.array d p).length = mask.length then (s.setArray d p (patchNorms eps mask (s.array d p)), .ok ())
        else (s, .error .indexError)

/-- `user_norms`, `item_norms` (`implicit/cpu/matrix_factorization_base.py:232-246`): the number of the array. -/
def normsProg (env : Env f R) (d : Side) : Thread f R Nat :=
  (Prog.read fun s => s.norms d).bind fun
    | some _ => .read fun s => notNone (s.norms d)
    | none =>
      (Prog.read fun s => s.cur d).bind fun p =>
      (Prog.read fun s => s.tab d p).bind fun t =>
      (Prog.write fun s => s.publish d (t.map env.norm)).bind fun _ =>
      (fixNorms env.eps d).andThen fun _ =>
      .read fun s => notNone (s.norms d)

/-- `YtY`, `XtX` (`implicit/cpu/als.py:424-436`). -/
def gramProg (d : Side) : Thread f R (Mat f R) :=
  (Prog.read fun s => s.gram d).bind fun
    | some _ => .read fun s => notNone (s.gram d)
    | none =>
      (Prog.read fun s => s.cur d).bind fun p =>
      (Prog.read fun s => s.tab d p).bind fun t =>
      (Prog.write fun s => { s with gram := Function.update s.gram d (some (Implicit.gram t)) }).bind fun _ =>
      .read fun s => notNone (s.gram d)

/-- `self.item_factors` (`self.user_factors`), then the contents of the array. -/
def tableProg (d : Side) : Prog (Shared f R) (List (Vec f R)) :=
  (Prog.read fun s => s.cur d).bind fun p => .read fun s => s.tab d p

/-- A state for the sequential model with nothing but what a call has read. -/
def seen (user item : List (Vec f R)) (YtY XtX : Option (Mat f R)) : MFState f R := ⟨user, item, none, none, YtY, XtX⟩

/-- `recalculate_user` (`implicit/cpu/als.py:203-240`); the check of the number of rows comes first. -/
def recalculateUserProg (env : Env f R) (ids : Ids) (rows : SpRows R) : Thread f R (List (Vec f R)) :=
  if rows.length ≠ ids.count then .done (.error .valueError)
  else
    (gramProg .item).andThen fun G =>
    (tableProg .item).bind fun Y =>
    .done (recalculateUser env (seen [] Y (some G) none) ids rows).1

/-- `recalculate_item` (`implicit/cpu/als.py:242-273`). -/
def recalculateItemProg (env : Env f R) (ids : Ids) (rows : SpRows R) : Thread f R (List (Vec f R)) :=
  (gramProg .user).andThen fun G =>
  (tableProg .user).bind fun X =>
  .done (recalculateItem env (seen X [] none (some G)) ids rows).1

/-- `recommend` (`implicit/cpu/matrix_factorization_base.py:34-95`).  `self.user_factors[userid]` of one user is a view, whose contents
are read by `topk`; of several users it is a copy. -/
def recommendProg (env : Env f R) (ids : Ids) (userItems : Option (SpRows R)) (N : Nat) (filterLiked : Bool)
    (filterItems : Option PyFilter) (recalculate : Bool) (items : Option (List Int)) : Thread f R (Answer R) :=
  match checkUserItems ids userItems (filterLiked || recalculate) with
  | .error e => .done (.error e)
  | .ok () =>
    if recalculate then
      (recalculateUserProg env ids (userItems.getD [])).andThen fun xs =>
      (tableProg .item).bind fun Y =>
      .done (recommend env.H env.neginf ⟨[], Y⟩ (fun _ => .ok xs) ids userItems N filterLiked filterItems true items)
    else
      (Prog.read fun s => s.cur .user).bind fun p =>
      (Prog.read fun s => s.tab .user p).bind fun X =>
      match gather X ids.toList with
      | .error e => .done (.error e)
      | .ok _ =>
        (tableProg .item).bind fun Y =>
        match ids with
        | .many _ => .done (recommend env.H env.neginf ⟨X, Y⟩ noRecalc ids userItems N filterLiked filterItems false items)
        | .one _ =>
          (Prog.read fun s => s.tab .user p).bind fun X' =>
          .done (recommend env.H env.neginf ⟨X', Y⟩ noRecalc ids userItems N filterLiked filterItems false items)

/-- The end of `similar_items` and `similar_users`: the norms of the query (copied), then the whole matrix and its norms, which `topk`
reads through the references. -/
def similarEnd (env : Env f R) (d : Side) (ids : Ids) (q : Nat → List (Vec f R) → Except Err (List (Vec f R))) (p n : Nat) (N : Nat)
    (filterItems : Option PyFilter) (items : Option (List Int)) : Thread f R (Answer R) :=
  (Prog.read fun s => gather (s.array d n) ids.toList).andThen fun qnorms =>
  (Prog.read fun s => s.tab d p).bind fun t =>
  (Prog.read fun s => s.array d n).bind fun norms =>
  (Prog.read fun s => q p (s.tab d p)).andThen fun query =>
  .done (similarWith env.H env.neginf t norms ids query qnorms N filterItems items)

/-- `similar_items` (`implicit/cpu/matrix_factorization_base.py:177-212`), `recalculate_item=False`: the factor is looked up first; of
several items it is a copy. -/
def similarItemsProg (env : Env f R) (ids : Ids) (N : Nat) (filterItems : Option PyFilter) (items : Option (List Int)) :
    Thread f R (Answer R) :=
  (Prog.read fun s => s.cur .item).bind fun p0 =>
  (Prog.read fun s => gather (s.tab .item p0) ids.toList).andThen fun copy =>
  (Prog.read fun s => s.cur .item).bind fun p =>
  (normsProg env .item).andThen fun n =>
  match ids with
  | .many _ => similarEnd env .item ids (fun _ _ => .ok copy) p n N filterItems items
  | .one _ =>
    (Prog.read fun s => gather (s.array .item n) ids.toList).andThen fun qnorms =>
    (Prog.read fun s => s.tab .item p).bind fun t =>
    (Prog.read fun s => s.array .item n).bind fun norms =>
    (Prog.read fun s => gather (s.tab .item p0) ids.toList).andThen fun query =>
    .done (similarWith env.H env.neginf t norms ids query qnorms N filterItems items)

/-- `similar_items` with `recalculate_item=True`. -/
def similarItemsRecalcProg (env : Env f R) (ids : Ids) (itemUsers : SpRows R) (N : Nat) (filterItems : Option PyFilter)
    (items : Option (List Int)) : Thread f R (Answer R) :=
  (recalculateItemProg env ids itemUsers).andThen fun query =>
  (Prog.read fun s => s.cur .item).bind fun p =>
  (normsProg env .item).andThen fun n =>
  (Prog.read fun s => s.tab .item p).bind fun t =>
  (Prog.read fun s => s.array .item n).bind fun norms =>
  .done (similarWith env.H env.neginf t norms ids query (safeNorms env.norm env.eps query) N filterItems items)

/-- `similar_users` (`implicit/cpu/matrix_factorization_base.py:148-173`): the factor is looked up last. -/
def similarUsersProg (env : Env f R) (ids : Ids) (N : Nat) (filterUsers : Option PyFilter) (users : Option (List Int)) :
    Thread f R (Answer R) :=
  (Prog.read fun s => s.cur .user).bind fun p =>
  (normsProg env .user).andThen fun n =>
  similarEnd env .user ids (fun _ t => gather t ids.toList) p n N filterUsers users

/-- `explain` (`implicit/cpu/als.py:350-415`). -/
def explainProg (env : Env f R) (userid : Nat) (userItems : SpRows R) (itemid : Nat) (weights : Option (Mat f R)) (N : Nat) :
    Thread f R (Explanation f R) :=
  match (applyAlpha env.p.alpha userItems)[userid]? with
  | none =>
    match weights with
    | some _ => .done (.error .indexError)
    | none => (gramProg .item).andThen fun _ => .done (.error .indexError)
  | some _ =>
    match weights with
    | some A => (tableProg .item).bind fun Y => .done (explain env (seen [] Y none none) userid userItems itemid (some A) N).1
    | none =>
      (gramProg .item).andThen fun G =>
      (tableProg .item).bind fun Y =>
      .done (explain env (seen [] Y (some G) none) userid userItems itemid none N).1

/-- A query, step by step. -/
def queryProg (env : Env f R) : Query f R → Thread f R (Result f R)
  | .recommend ids userItems N filterLiked filterItems recalculate items =>
    (recommendProg env ids userItems N filterLiked filterItems recalculate items).andThen fun a => .done (.ok (.answer a))
  | .similarItems ids N filterItems items =>
    (similarItemsProg env ids N filterItems items).andThen fun a => .done (.ok (.answer a))
  | .similarItemsRecalc ids itemUsers N filterItems items =>
    (similarItemsRecalcProg env ids itemUsers N filterItems items).andThen fun a => .done (.ok (.answer a))
  | .similarUsers ids N filterUsers users =>
    (similarUsersProg env ids N filterUsers users).andThen fun a => .done (.ok (.answer a))
  | .recalculateUser ids userItems => (recalculateUserProg env ids userItems).andThen fun a => .done (.ok (.vectors a))
  | .recalculateItem ids itemUsers => (recalculateItemProg env ids itemUsers).andThen fun a => .done (.ok (.vectors a))
  | .explain userid userItems itemid weights N =>
    (explainProg env userid userItems itemid weights N).andThen fun a => .done (.ok (.explanation a))

/-! ## `partial_fit` -/

/-- `factors[ids] = rows` on array number `p`, one row per step. -/
def storeRows (d : Side) (p : Nat) : List (Nat × Vec f R) → Thread f R Unit
  | [] => .done (.ok ())
  | (i, x) :: rest =>
    (Prog.write fun s => { s with tabs := Function.update s.tabs d ((s.tabs d).set p ((s.tab d p).set i x)) }).bind fun _ =>
    storeRows d p rest

/-- `self.user_factors = np.concatenate([self.user_factors, zeros])`: a new array with the contents the old one had when it was copied,
and the attribute names it. -/
def growProg (d : Side) (extra : Nat) : Thread f R Unit :=
  (tableProg d).bind fun t =>
  (Prog.write fun s => { s with
    tabs := Function.update s.tabs d (s.tabs d ++ [t ++ List.replicate extra (fun _ => 0)]),
    cur := Function.update s.cur d (s.tabs d).length }).bind fun _ => .done (.ok ())

/-- The rows of the recalculated factors are stored (`implicit/cpu/als.py:297-311` and 334-348): shape, growth, assignment (numpy checks
all ids before the first store), then the two caches are dropped. -/
def storeProg (d : Side) (ids : List Nat) (xs : List (Vec f R)) : Thread f R Unit :=
  (Prog.read fun s => (s.tab d (s.cur d)).length).bind fun n =>
  match pyMax ids with
  | .error e => .done (.error e)
  | .ok maxId =>
    (if n ≤ maxId then growProg d (maxId - n + 1) else .done (.ok ())).andThen fun _ =>
    (Prog.read fun s => s.cur d).bind fun p =>
    (Prog.read fun s => if ids.all (fun i => decide (i < (s.tab d p).length)) then Except.ok () else .error .indexError).andThen fun _ =>
    (storeRows d p (ids.zip xs)).andThen fun _ =>
    (Prog.write fun s => { s with norms := Function.update s.norms d none }).bind fun _ =>
    (Prog.write fun s => { s with gram := Function.update s.gram d none }).bind fun _ =>
    .done (.ok ())

/-- `partial_fit_users` (`implicit/cpu/als.py:275-311`). -/
def partialFitUsersProg (env : Env f R) (ids : List Nat) (userItems : SpRows R) : Thread f R Unit :=
  if ids.length ≠ userItems.length then .done (.error .valueError)
  else (recalculateUserProg env (.many ids) userItems).andThen fun xs => storeProg .user ids xs

/-- `partial_fit_items` (`implicit/cpu/als.py:313-348`). -/
def partialFitItemsProg (env : Env f R) (ids : List Nat) (itemUsers : SpRows R) : Thread f R Unit :=
  if ids.length ≠ itemUsers.length then .done (.error .valueError)
  else (recalculateItemProg env (.many ids) itemUsers).andThen fun xs => storeProg .item ids xs

end Implicit
