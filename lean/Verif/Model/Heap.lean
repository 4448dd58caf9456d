import Mathlib.Order.Defs.LinearOrder
import Verif.Model.Basic
/-!
# The C++ heap algorithms used by the top-k code

`implicit/cpu/select.h:16,25,29,33` and `implicit/nearest_neighbours.h:22,27,33`
call `std::pop_heap`, `std::push_heap` and `std::sort_heap` with the comparator
`std::greater<std::pair<T,int>>`.  Those library functions are not in the
repository: they are a parameter of the model, `HeapImpl`, whose laws are the
documented contracts of the three functions.  `insertionHeap` below satisfies
the laws, so the contract is consistent.
-/

namespace Implicit

/-- `operator<` of `std::pair<T,int>`: lexicographic. -/
def pairLt {R : Type} [LT R] (a b : R × Nat) : Prop :=
  a.1 < b.1 ∨ (¬ b.1 < a.1 ∧ a.2 < b.2)

instance {R : Type} [LinearOrder R] (a b : R × Nat) : Decidable (pairLt a b) := by
  unfold pairLt; infer_instance

/-- Contract of the C++ heap functions for the comparator `std::greater`, i.e. a
heap whose front is a smallest element with respect to `lt`.
* `push h x` is `push_back(x); push_heap(...)`,
* `pop h` is `pop_heap(...); pop_back()`,
* `sort h` is `sort_heap(...)` (which, for `std::greater`, orders descending). -/
structure HeapImpl (α : Type*) (lt : α → α → Prop) where
  IsHeap : List α → Prop
  push : List α → α → List α
  pop : List α → List α
  sort : List α → List α
  heap_nil : IsHeap []
  heap_push : ∀ {h x}, IsHeap h → IsHeap (push h x)
  push_perm : ∀ {h x}, IsHeap h → (push h x).Perm (x :: h)
  heap_pop : ∀ {m t}, IsHeap (m :: t) → IsHeap (pop (m :: t))
  pop_perm : ∀ {m t}, IsHeap (m :: t) → (pop (m :: t)).Perm t
  head_min : ∀ {m t}, IsHeap (m :: t) → ∀ a ∈ t, ¬ lt a m
  sort_perm : ∀ {h}, IsHeap h → (sort h).Perm h
  sort_sorted : ∀ {h}, IsHeap h → (sort h).Pairwise (fun a b => ¬ lt a b)

end Implicit
