import Mathlib.Data.List.Forall2
/-!
# What the file written by an example program has to contain
-/

namespace Implicit.Spec

variable {R : Type} {α : Type}

/-- The lines of one entity: one line per entry of its answer, in order, with the name of the entity, the name of the
entry and its score. -/
def SectionOf (labels titles : List α) (i : Nat) (answer : List (Nat × R)) (lines : List (α × α × R)) : Prop :=
  List.Forall₂ (fun p l => labels[i]? = some l.1 ∧ titles[p.1]? = some l.2.1 ∧ l.2.2 = p.2) answer lines

/-- The file lists the entities of `order`, each with an answer it may have. -/
def ListingOf (labels titles : List α) (order : List Nat) (answer : Nat → List (Nat × R) → Prop)
    (file : List (α × α × R)) : Prop :=
  ∃ parts, file = parts.flatten ∧
    List.Forall₂ (fun i part => ∃ a, answer i a ∧ SectionOf labels titles i a part) order parts

/-- Every number below `n` once, the most popular first, equally popular ones by number. -/
def PopularFirst (popularity : Nat → Nat) (n : Nat) (order : List Nat) : Prop :=
  (∀ i, i ∈ order ↔ i < n) ∧ order.Nodup ∧
    order.Pairwise fun a b => popularity b < popularity a ∨ popularity a = popularity b ∧ a < b

end Implicit.Spec
