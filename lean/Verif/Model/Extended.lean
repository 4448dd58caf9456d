import Verif.Model.Rounding
/-!
# Scores in floating point with infinities and NaN

The models of `Rounding.lean` have no largest number.  Here results beyond the largest float `Ω` become infinite, and infinities
meet in NaN, as in IEEE 754 (signs of zeros are left out).  The factors themselves are finite.
-/

namespace Implicit

/-- A float. -/
inductive Ext (R : Type) where
  | fin (x : R)
  | posInf
  | negInf
  | nan
  deriving DecidableEq

namespace Ext

variable {R : Type} [Field R] [LinearOrder R]

/-- `<` on floats: comparisons with NaN are false. -/
def lt : Ext R → Ext R → Bool
  | fin x, fin y => decide (x < y)
  | fin _, posInf => true
  | negInf, fin _ => true
  | negInf, posInf => true
  | _, _ => false

/-- The result of an operation whose exact value is `x`. -/
def ofExact (r : Rounding R) (Ω x : R) : Ext R :=
  if |r.rnd x| ≤ Ω then fin (r.rnd x) else if 0 < x then posInf else negInf

/-- Addition. -/
def add (r : Rounding R) (Ω : R) : Ext R → Ext R → Ext R
  | nan, _ => nan
  | _, nan => nan
  | fin x, fin y => ofExact r Ω (x + y)
  | posInf, negInf => nan
  | negInf, posInf => nan
  | posInf, _ => posInf
  | _, posInf => posInf
  | negInf, _ => negInf
  | _, negInf => negInf

/-- Division. -/
def div (r : Rounding R) (Ω : R) : Ext R → Ext R → Ext R
  | nan, _ => nan
  | _, nan => nan
  | fin x, fin y => if y = 0 then (if x = 0 then nan else if 0 < x then posInf else negInf) else ofExact r Ω (x / y)
  | fin _, _ => fin 0
  | posInf, fin y => if y < 0 then negInf else posInf
  | negInf, fin y => if y < 0 then posInf else negInf
  | _, _ => nan

/-- Square root. -/
noncomputable def sqrt (r : Rounding ℝ) (Ω : ℝ) : Ext ℝ → Ext ℝ
  | fin x => if x < 0 then nan else ofExact r Ω (Real.sqrt x)
  | posInf => posInf
  | _ => nan

end Ext

section
variable {R : Type} [Field R] [LinearOrder R] {f n : Nat}

/-- A sum of products of finite numbers in a given order; a fused multiply-add does not round the product. -/
def SumTree.extEval (r : Rounding R) (Ω : R) (x y : Vec f R) : SumTree f → Ext R
  | .leaf i => .ofExact r Ω (x i * y i)
  | .add l m => .add r Ω (l.extEval r Ω x y) (m.extEval r Ω x y)
  | .fma i t => match t.extEval r Ω x y with
    | .fin s => .ofExact r Ω (x i * y i + s)
    | e => e

/-- The positions in `filter` overwritten by the lowest float, and the best `k` selected (`implicit/cpu/topk.pyx:51-68`). -/
def extSelect (Ω : R) (filter : List (Fin n)) (k : Nat) (scores : Fin n → Ext R) : Except Err (List (Ext R × Nat)) :=
  rawSelect Ext.lt k ((List.finRange n).map fun j => if j ∈ filter then .fin (-Ω) else scores j)

/-- `recommend` for one user (`implicit/cpu/matrix_factorization_base.py:38-88`): `filter` has the liked and filtered items. -/
def extRecommend (r : Rounding R) (Ω : R) (order : Fin n → SumTree f) (filter : List (Fin n)) (k : Nat) (q : Vec f R)
    (items : Fin n → Vec f R) : Except Err (List (Ext R × Nat)) :=
  extSelect Ω filter k fun j => (order j).extEval r Ω q (items j)

end

section
variable {f n : Nat}

/-- `np.linalg.norm` of a row, with zero replaced (`implicit/cpu/matrix_factorization_base.py:233-248`). -/
noncomputable def extNorm (r : Rounding ℝ) (Ω : ℝ) (t : SumTree f) (x : Vec f ℝ) : Ext ℝ :=
  open Classical in
  let s := Ext.sqrt r Ω (t.extEval r Ω x x)
  if s = .fin 0 then .ofExact r Ω (1 / 10 ^ 10) else s

/-- `similar_items` for one item: `topk` with the item norms, then the scores divided by the norm of the query
(`implicit/cpu/matrix_factorization_base.py:216-230`). -/
noncomputable def extSimilar (r : Rounding ℝ) (Ω : ℝ) (order normOrder : Fin n → SumTree f) (queryOrder : SumTree f)
    (filter : List (Fin n)) (k : Nat) (q : Vec f ℝ) (items : Fin n → Vec f ℝ) : Except Err (List (Ext ℝ × Nat)) := do
  let out ← extSelect Ω filter k fun j => .div r Ω ((order j).extEval r Ω q (items j)) (extNorm r Ω (normOrder j) (items j))
  pure (out.map fun p => (.div r Ω p.1 (extNorm r Ω queryOrder q), p.2))

end

end Implicit
