import Mathlib.Logic.Function.Basic
import Verif.Model.Select
/-!
# The heap functions of libstdc++

`bits/stl_heap.h`: what `std::push_heap`, `std::pop_heap` and `std::sort_heap` do in the library the wheels are built with.
`Model/Heap.lean` states their contract; this file has the algorithms, so that the contract can be proved instead of trusted.

A vector is a function from positions; `gt` is the comparator (`std::greater` in `implicit/cpu/select.h:16` and
`implicit/nearest_neighbours.h:33`).  `topIndex` is always 0 in the functions used.  Loops carry fuel, which never runs out.
-/

namespace Implicit

variable {α : Type}

/-- `__push_heap`: the hole moves up while the parent compares greater; then the value is put there. -/
def siftUp (gt : α → α → Bool) : Nat → (Nat → α) → Nat → α → (Nat → α)
  | 0, a, hole, v => Function.update a hole v
  | fuel + 1, a, hole, v =>
    if 0 < hole ∧ gt (a ((hole - 1) / 2)) v then
      siftUp gt fuel (Function.update a hole (a ((hole - 1) / 2))) ((hole - 1) / 2) v
    else Function.update a hole v

/-- The first loop of `__adjust_heap`: the hole moves down, always to the child that does not compare greater than its sibling.
Returns the vector and the hole (which is `secondChild` at every test of the loop). -/
def siftDown (gt : α → α → Bool) (len : Nat) : Nat → (Nat → α) → Nat → (Nat → α) × Nat
  | 0, a, hole => (a, hole)
  | fuel + 1, a, hole =>
    if hole < (len - 1) / 2 then
      let right := 2 * (hole + 1)
      let s := if gt (a right) (a (right - 1)) then right - 1 else right
      siftDown gt len fuel (Function.update a hole (a s)) s
    else (a, hole)

/-- `__adjust_heap` from position 0. -/
def adjustHeap (gt : α → α → Bool) (a : Nat → α) (len : Nat) (v : α) : Nat → α :=
  let p := siftDown gt len len a 0
  if len % 2 = 0 ∧ p.2 = (len - 2) / 2 then
    let left := 2 * (p.2 + 1) - 1
    siftUp gt left (Function.update p.1 p.2 (p.1 left)) left v
  else siftUp gt p.2 p.1 p.2 v

/-- `std::push_heap` on the first `n` elements. -/
def pushHeap (gt : α → α → Bool) (a : Nat → α) (n : Nat) : Nat → α := siftUp gt (n - 1) a (n - 1) (a (n - 1))

/-- `std::pop_heap` on the first `n` elements. -/
def popHeap (gt : α → α → Bool) (a : Nat → α) (n : Nat) : Nat → α :=
  if 1 < n then adjustHeap gt (Function.update a (n - 1) (a 0)) (n - 1) (a (n - 1)) else a

/-- `std::sort_heap` on the first `n` elements. -/
def sortHeap (gt : α → α → Bool) : Nat → (Nat → α) → (Nat → α)
  | 0, a => a
  | n + 1, a => sortHeap gt n (popHeap gt a (n + 1))

/-- The first `n` elements. -/
def vecList (a : Nat → α) (n : Nat) : List α := (List.range n).map a

/-- A vector with the given elements; positions past the end are never read. -/
def listVec (l : List α) (d : α) (i : Nat) : α := l.getD i d

/-- `push_back(x); push_heap(...)`. -/
def libPush (gt : α → α → Bool) (h : List α) (x : α) : List α :=
  vecList (pushHeap gt (listVec (h ++ [x]) x) (h.length + 1)) (h.length + 1)

/-- `pop_heap(...); pop_back()`. -/
def libPop (gt : α → α → Bool) : List α → List α
  | [] => []
  | m :: t => vecList (popHeap gt (listVec (m :: t) m) (t.length + 1)) t.length

/-- `sort_heap(...)`. -/
def libSort (gt : α → α → Bool) : List α → List α
  | [] => []
  | m :: t => vecList (sortHeap gt (t.length + 1) (listVec (m :: t) m)) (t.length + 1)

/-! ## `select` with the comparisons as the code makes them

Over machine floats `<` is a partial comparison (`NaN` compares false with everything), so these definitions take the two
comparisons of the code as they are: `score > results[0].first` and `std::greater` on pairs. -/

/-- `std::greater` of `std::pair<T,int>`: `b < a`, lexicographic (`bits/stl_pair.h`). -/
def pairGt {S : Type} (lt : S → S → Bool) (a b : S × Nat) : Bool :=
  lt b.1 a.1 || (!lt a.1 b.1 && decide (b.2 < a.2))

/-- `implicit/cpu/select.h:23-30` with the library's heap. -/
def rawOffer {S : Type} (lt : S → S → Bool) (k : Nat) (h : List (S × Nat)) (c : S × Nat) :
    Except Err (List (S × Nat)) :=
  if h.length < k then .ok (libPush (pairGt lt) h c)
  else
    match h with
    | [] => .error .undefinedBehaviour
    | m :: t => if lt m.1 c.1 then .ok (libPush (pairGt lt) (libPop (pairGt lt) (m :: t)) c) else .ok (m :: t)

def rawOfferAll {S : Type} (lt : S → S → Bool) (k : Nat) :
    List (S × Nat) → List (S × Nat) → Except Err (List (S × Nat))
  | h, [] => .ok h
  | h, c :: cs => do rawOfferAll lt k (← rawOffer lt k h c) cs

/-- `implicit/cpu/select.h:19-33`: one row of `select`. -/
def rawSelect {S : Type} (lt : S → S → Bool) (k : Nat) (scores : List S) : Except Err (List (S × Nat)) := do
  let h ← rawOfferAll lt k [] scores.zipIdx
  pure (libSort (pairGt lt) h)

end Implicit
