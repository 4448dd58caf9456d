import Verif.Spec.Split
import Mathlib.Data.Fintype.Pi
/-!
# Fair splits, by counting

A draw takes each of finitely many values equally often, independently of the others: all functions from the
draws to the set of values are equally likely.
-/

namespace Implicit.Spec

variable {R : Type}

/-- The outcomes of `n` draws from `V` with `ok`. -/
noncomputable def clearDraws [LinearOrder R] {n : Nat} (V : Finset R) (ok : (Fin n → R) → Prop) :
    Finset (Fin n → R) := by
  classical exact (Fintype.piFinset fun _ => V).filter ok

/-- No two draws give the same sort key for the same user. -/
def NoTiedKeys [Add R] [NatCast R] (fl : R → R) (users : List Nat) {n : Nat} (d : Fin n → R) : Prop :=
  ∀ u ∈ users, Function.Injective fun i => fl ((u : R) + d i)

/-- The cells stored in the first `nrows` rows of a matrix are exactly those of `S`. -/
def Stores (nrows : Nat) (rows : List (List (Nat × R))) (S : Finset (Nat × Nat)) : Prop :=
  ∀ r c, r < nrows → (StoredAt rows r c ↔ (r, c) ∈ S)

/-- `K` rated cells of every eligible user. -/
structure IsChoice (entries : List (Nat × Nat × R)) (eligible : Nat → Prop) (K : Nat) (S : Finset (Nat × Nat)) :
    Prop where
  rated : ∀ rc ∈ S, eligible rc.1 ∧ ∃ e ∈ entries, (e.1, e.2.1) = rc
  each : ∀ v, eligible v → (S.filter fun rc => rc.1 = v).card = K

end Implicit.Spec
