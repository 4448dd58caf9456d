import Mathlib.Data.Int.Log
import Mathlib.Algebra.Order.Round
import Mathlib.Analysis.SpecialFunctions.Pow.NNReal
import Verif.Model.LibHeap
import Verif.Model.Vec
/-!
# Scores in floating point

The other models compute in exact arithmetic.  Here every operation of the score computations is followed by a rounding, and
sums are taken in any order: `query.dot(items.T)` is a BLAS product whose order of summation depends on library, block sizes and
instruction set, with or without fused multiply-add.
-/

namespace Implicit

/-- Rounding to the nearest float: relative error `u`, plus `η` in the range of subnormal numbers (`float32`: `2^-24` and
`2^-150`).  Overflow is not included. -/
structure Rounding (R : Type) [Field R] [LinearOrder R] where
  rnd : R → R
  u : R
  η : R
  u_nonneg : 0 ≤ u
  η_nonneg : 0 ≤ η
  err : ∀ x, |rnd x - x| ≤ u * |x| + η

/-- An order of summation of the products `x i * y i`.  `fma i t` is the fused multiply-add of product `i` to the sum `t`. -/
inductive SumTree (f : Nat) where
  | leaf (i : Fin f)
  | add (l r : SumTree f)
  | fma (i : Fin f) (t : SumTree f)

namespace SumTree

variable {f : Nat}

/-- The products in the sum. -/
def leaves : SumTree f → List (Fin f)
  | leaf i => [i]
  | add l r => l.leaves ++ r.leaves
  | fma i t => i :: t.leaves

/-- The sum takes every product once. -/
def Complete (t : SumTree f) : Prop := t.leaves.Perm (List.finRange f)

/-- What is computed. -/
def eval {R : Type} [Field R] [LinearOrder R] (r : Rounding R) (x y : Vec f R) : SumTree f → R
  | leaf i => r.rnd (x i * y i)
  | add l r' => r.rnd (l.eval r x y + r'.eval r x y)
  | fma i t => r.rnd (x i * y i + t.eval r x y)

/-- One after the other: `((x₀y₀ + x₁y₁) + …) + xₙyₙ`. -/
def chain : List (Fin f) → SumTree f → SumTree f
  | [], t => t
  | j :: js, t => chain js (add t (leaf j))

end SumTree

section
variable {R : Type} [Field R] [LinearOrder R] {f n : Nat}

/-- One row of `query.dot(items.T)` (`implicit/cpu/topk.pyx:47`), each entry summed in its own order. -/
def roundScores (r : Rounding R) (order : Fin n → SumTree f) (q : Vec f R) (items : Fin n → Vec f R) : Fin n → R :=
  fun j => (order j).eval r q (items j)

/-- Rows divided by the item norms (`implicit/cpu/topk.pyx:48-49`). -/
def roundDivide (r : Rounding R) (scores norms : Fin n → R) : Fin n → R := fun j => r.rnd (scores j / norms j)

/-- The positions in `filter` overwritten by the lowest float, and the best `k` selected (`implicit/cpu/topk.pyx:51-68`). -/
def roundSelect (lowest : R) (filter : List (Fin n)) (k : Nat) (scores : Fin n → R) : Except Err (List (R × Nat)) :=
  rawSelect (fun a b => decide (a < b)) k ((List.finRange n).map fun j => if j ∈ filter then lowest else scores j)

/-- `recommend` for one user (`implicit/cpu/matrix_factorization_base.py:38-88`): `filter` has the liked and filtered items. -/
def roundRecommend (r : Rounding R) (order : Fin n → SumTree f) (lowest : R) (filter : List (Fin n)) (k : Nat) (q : Vec f R)
    (items : Fin n → Vec f R) : Except Err (List (R × Nat)) :=
  roundSelect lowest filter k (roundScores r order q items)

end

section
variable {f n : Nat}

/-- `np.linalg.norm` of a row, with zero replaced (`implicit/cpu/matrix_factorization_base.py:243-245`). -/
noncomputable def roundNorm (r : Rounding ℝ) (t : SumTree f) (x : Vec f ℝ) : ℝ :=
  let s := r.rnd (Real.sqrt (t.eval r x x))
  if s = 0 then r.rnd (1 / 10 ^ 10) else s

/-- `similar_items` for one item: `topk` with the item norms, then the scores divided by the norm of the query
(`implicit/cpu/matrix_factorization_base.py:216-230`). -/
noncomputable def roundSimilar (r : Rounding ℝ) (order normOrder : Fin n → SumTree f) (queryOrder : SumTree f) (lowest : ℝ)
    (filter : List (Fin n)) (k : Nat) (q : Vec f ℝ) (items : Fin n → Vec f ℝ) : Except Err (List (ℝ × Nat)) := do
  let norms := fun j => roundNorm r (normOrder j) (items j)
  let out ← roundSelect lowest filter k (roundDivide r (roundScores r order q items) norms)
  pure (out.map fun p => (r.rnd (p.1 / roundNorm r queryOrder q), p.2))

end

/-! ## Rounding to `p` binary digits -/

section
variable {R : Type} [Field R] [LinearOrder R] [IsStrictOrderedRing R] [FloorRing R]

/-- The spacing of the floats around `x`: `p` significant bits, never finer than `2^emin`. -/
def ulp (p : Nat) (emin : Int) (x : R) : R := 2 ^ max (Int.log 2 |x| - p + 1) emin

/-- To nearest (ties upwards), with subnormal numbers and without a largest exponent. -/
def roundBits (p : Nat) (emin : Int) (x : R) : R := (round (x / ulp p emin x) : Int) * ulp p emin x

/-- The same without a smallest exponent. -/
def roundFree (p : Nat) (x : R) : R :=
  (round (x / 2 ^ (Int.log 2 |x| - p + 1)) : Int) * 2 ^ (Int.log 2 |x| - p + 1)

end

end Implicit
