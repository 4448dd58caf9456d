import Mathlib.Data.List.Sort
import Mathlib.Data.List.Basic
import Mathlib.Order.Basic
import Verif.Model.Heap
import Verif.Spec.TopK

namespace Implicit

variable {R : Type} [LinearOrder R]

theorem pairLt_irrefl (a : R × Nat) : ¬ pairLt a a := by
  simp [pairLt]

theorem pairLt_trans {a b c : R × Nat} (h1 : pairLt a b) (h2 : pairLt b c) : pairLt a c := by
  unfold pairLt at *
  rcases h1 with h1 | ⟨h1, h1'⟩ <;> rcases h2 with h2 | ⟨h2, h2'⟩
  · exact Or.inl (lt_trans h1 h2)
  · exact Or.inl (lt_of_lt_of_le h1 (not_lt.mp h2))
  · exact Or.inl (lt_of_le_of_lt (not_lt.mp h1) h2)
  · exact Or.inr ⟨not_lt.mpr (le_trans (not_lt.mp h1) (not_lt.mp h2)), lt_trans h1' h2'⟩

theorem pairLt_total (a b : R × Nat) : pairLt a b ∨ a = b ∨ pairLt b a := by
  unfold pairLt
  rcases lt_trichotomy a.1 b.1 with h | h | h
  · exact Or.inl (Or.inl h)
  · rcases lt_trichotomy a.2 b.2 with h' | h' | h'
    · left; right; exact ⟨by simp [h], h'⟩
    · right; left; exact Prod.ext h h'
    · right; right; right; exact ⟨by simp [h], h'⟩
  · exact Or.inr (Or.inr (Or.inl h))

theorem not_pairLt_fst {a b : R × Nat} (h : ¬ pairLt a b) : b.1 ≤ a.1 := by
  unfold pairLt at h; push Not at h; exact h.1

theorem before_iff {a b : R × Nat} : Spec.Before a b ↔ pairLt b a := by
  unfold Spec.Before pairLt
  constructor
  · rintro (h | ⟨h, h'⟩)
    · exact Or.inl h
    · exact Or.inr ⟨by simp [h], h'⟩
  · rintro (h | ⟨h, h'⟩)
    · exact Or.inl h
    · rcases lt_or_eq_of_le (not_lt.mp h) with h2 | h2
      · exact Or.inl h2
      · exact Or.inr ⟨h2.symm, h'⟩

theorem not_pairLt_iff {a b : R × Nat} : ¬ pairLt a b ↔ a = b ∨ Spec.Before a b := by
  rw [before_iff]
  constructor
  · intro h
    rcases pairLt_total a b with h1 | h1 | h1
    · exact absurd h1 h
    · exact Or.inl h1
    · exact Or.inr h1
  · rintro (h | h) h'
    · subst h; exact pairLt_irrefl _ h'
    · exact pairLt_irrefl _ (pairLt_trans h h')

/-- Ascending order used by the reference heap. -/
def pairLe (a b : R × Nat) : Prop := ¬ pairLt b a

instance : DecidableRel (pairLe (R := R)) := fun a b => by unfold pairLe; infer_instance

instance : Std.Total (pairLe (R := R)) :=
  ⟨fun a b => by
    unfold pairLe
    by_cases h : pairLt b a
    · exact Or.inr (fun h' => pairLt_irrefl _ (pairLt_trans h h'))
    · exact Or.inl h⟩

instance : IsTrans (R × Nat) (pairLe (R := R)) :=
  ⟨fun a b c h1 h2 h3 => by
    unfold pairLe at *
    rcases pairLt_total a b with h | h | h
    · exact h2 (pairLt_trans h3 h)
    · subst h; exact h2 h3
    · exact h1 h⟩

/-- A concrete heap satisfying the contract: the list kept in ascending order. -/
def insertionHeap : HeapImpl (R × Nat) pairLt where
  IsHeap h := h.Pairwise pairLe
  push h x := h.orderedInsert pairLe x
  pop h := h.tail
  sort h := h.reverse
  heap_nil := List.Pairwise.nil
  heap_push h := List.Pairwise.orderedInsert _ _ h
  push_perm _ := List.perm_orderedInsert _ _ _
  heap_pop h := (List.pairwise_cons.mp h).2
  pop_perm _ := List.Perm.refl _
  head_min h a ha := (List.pairwise_cons.mp h).1 a ha
  sort_perm _ := List.reverse_perm _
  sort_sorted h := List.pairwise_reverse.mpr (h.imp fun h => h)

end Implicit
