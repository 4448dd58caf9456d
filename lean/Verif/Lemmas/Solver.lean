import Verif.Lemmas.ALS
import Mathlib.LinearAlgebra.FiniteDimensional.Basic
import Mathlib.LinearAlgebra.FiniteDimensional.Lemmas
import Mathlib.Tactic.FieldSimp
import Mathlib.Algebra.BigOperators.Fin

set_option linter.unusedSectionVars false

namespace Implicit

variable {R : Type} [LinearOrder R] [Field R] {f : Nat}

/-- `mulVec A` as a linear map. -/
def mulVecLin (A : Mat f R) : (Fin f → R) →ₗ[R] (Fin f → R) where
  toFun := mulVec A
  map_add' x y := by funext a; exact dot_add_right _ _ _
  map_smul' t x := by
    funext a
    simp only [mulVec, RingHom.id_apply, Pi.smul_apply, smul_eq_mul]
    exact dot_smul_right t (A a) x

variable [IsStrictOrderedRing R]

theorem posDef_solvable {A : Mat f R} (hA : PosDef A) (b : Vec f R) : ∃ x, mulVec A x = b := by
  have hinj : Function.Injective (mulVecLin A) := by
    intro x y h
    exact posDef_unique hA (b := mulVec A y) h rfl
  exact (LinearMap.injective_iff_surjective.mp hinj) b

open Classical in
/-- The contract of `Solver` can be met: an exact solver for positive definite systems that reports
an error otherwise. -/
noncomputable def exactSolver (f : Nat) (R : Type) [LinearOrder R] [Field R]
    [IsStrictOrderedRing R] : Solver f R where
  solve A b := if h : PosDef A then some (posDef_solvable h b).choose else none
  spec A b h := ⟨_, dif_pos h, (posDef_solvable h b).choose_spec⟩

/-- A computable exact solver for one factor, used to evaluate examples. -/
def scalarSolver (R : Type) [LinearOrder R] [Field R] [IsStrictOrderedRing R] : Solver 1 R where
  solve A b := if 0 < A 0 0 then some fun _ => b 0 / A 0 0 else none
  spec A b h := by
    have hpos : 0 < A 0 0 := by
      have := h.pos (fun _ => 1) (by intro e; simpa using congrFun e 0)
      simpa [dot, mulVec] using this
    refine ⟨_, if_pos hpos, ?_⟩
    funext a
    have ha : a = 0 := Subsingleton.elim _ _
    subst ha
    simp only [mulVec, dot, Fin.sum_univ_one]
    field_simp

end Implicit
