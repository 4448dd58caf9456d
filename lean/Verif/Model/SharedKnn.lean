import Verif.Model.Threads
import Verif.Model.NearestNeighbours
/-!
# Item-item models used by several threads: the lock of `NearestNeighboursScorer`
-/

namespace Implicit

variable {R : Type}

/-- What the threads share: the accumulator of the scorer and the owner of `self.lock`
(`implicit/_nearest_neighbours.pyx:45,51`).  The similarity matrix is never written after `fit`. -/
structure KnnShared (R : Type) where
  acc : Accum R
  lock : Option Nat
deriving DecidableEq

/-- A step on the accumulator. -/
def accStep {α : Type} (g : Accum R → Except Err (α × Accum R)) : Prog (KnnShared R) (Except Err α) :=
  .atomic fun s =>
    match g s.acc with
    | .ok r => ({ s with acc := r.2 }, .ok r.1)
    | .error e => (s, .error e)

/-- The calls of `add` (`implicit/_nearest_neighbours.pyx:75-81`), one step each. -/
def addsProg [Add R] : List (Nat × R) → Prog (KnnShared R) (Except Err Unit)
  | [] => .done (.ok ())
  | e :: es => (accStep fun a => (a.add e.1 e.2).map fun b => ((), b)).andThen fun _ => addsProg es

/-- `self.neighbours.sums[i] = 0` for the liked items (`implicit/_nearest_neighbours.pyx:83-87`). -/
def clearsProg [Zero R] : List Nat → Prog (KnnShared R) (Except Err Unit)
  | [] => .done (.ok ())
  | i :: is => (accStep fun a => (a.clear i).map fun b => ((), b)).andThen fun _ => clearsProg is

/-- One round of the loop of `foreach` (`implicit/nearest_neighbours.h:59-70`). -/
def Accum.visit [Zero R] (a : Accum R) : Except Err ((Nat × R) × Accum R) :=
  match a.head with
  | .negSucc _ => .error .undefinedBehaviour
  | .ofNat i =>
    match a.sums[i]?, a.next[i]? with
    | some s, some nx => .ok ((i, s), ⟨a.sums.set i 0, a.next.set i (-1), nx, a.length⟩)
    | _, _ => .error .undefinedBehaviour

/-- The loop of `foreach`, one round per step, and the reset of `length` and `head`
(`implicit/nearest_neighbours.h:71-72`). -/
def drainProg [Zero R] : Nat → Prog (KnnShared R) (Except Err (List (Nat × R)))
  | 0 => accStep fun a => .ok ([], { a with length := 0, head := -2 })
  | n + 1 => (accStep Accum.visit).andThen fun p => (drainProg n).andThen fun l => .done (.ok (p :: l))

/-- The statements under the lock (`implicit/_nearest_neighbours.pyx:74-89`); `topK` belongs to the call. -/
def scorerBody [LinearOrder R] [Field R] (H : HeapImpl (R × Nat) pairLt) (sim : SpRows R) (row : List (Nat × R)) (K : Nat)
    (removeOwnLikes : Bool) : Prog (KnnShared R) (Except Err (List (R × Nat))) :=
  (Prog.done (productAdds sim row)).andThen fun adds =>
  (addsProg adds).andThen fun _ =>
  (if removeOwnLikes then clearsProg (row.map Prod.fst) else .done (.ok ())).andThen fun _ =>
  (accStep fun a => .ok (a.length, a)).andThen fun n =>
  (drainProg n).andThen fun calls =>
  .done (offerAll H K [] (calls.map Prod.swap))

/-- `NearestNeighboursScorer.recommend` called by thread `me` (`implicit/_nearest_neighbours.pyx:60-105`): `with self.lock` waits
until the lock is free (an `RLock` can also be taken again by its owner) and frees it at the end; the results are sorted afterwards. -/
def scorerProg [LinearOrder R] [Field R] (H : HeapImpl (R × Nat) pairLt) (sim : SpRows R) (me : Nat) (row : List (Nat × R))
    (K : Nat) (removeOwnLikes : Bool) : Prog (KnnShared R) (Except Err (List (Nat × R))) :=
  (Prog.await (fun s => s.lock == none || s.lock == some me) fun s => { s with lock := some me }).bind fun _ =>
  (scorerBody H sim row K removeOwnLikes).andThen fun h =>
  (Prog.write fun s => { s with lock := none }).bind fun _ =>
  .done (.ok ((H.sort h).map Prod.swap))

/-- `ItemItemRecommender.recommend` for one user, called by thread `me` (`implicit/nearest_neighbours.py:71-105`). -/
def knnCallProg [LinearOrder R] [Field R] (H : HeapImpl (R × Nat) pairLt) (lowest : R) (sim : SpRows R) (me : Nat) (rows : SpRows R)
    (N : Nat) (filterLiked : Bool) (filterItems items : Option (List Int)) :
    Prog (KnnShared R) (Except Err (List (Int × R))) :=
  match knnPlan sim.length N filterItems items with
  | .error e => .done (.error e)
  | .ok n =>
    match rows with
    | [] => .done (.error .undefinedBehaviour)
    | row :: _ => (scorerProg H sim me row n filterLiked).andThen fun out => .done (.ok (knnPost lowest n filterItems items out))

end Implicit
