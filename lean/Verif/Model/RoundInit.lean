import Verif.Model.BPR
import Verif.Model.Rounding
/-!
# Initial factors in floating point

The draws `u` come from numpy (`Generator.random`, from 0 up to but excluding 1) and cuRAND (`curandGenerateUniform`, above 0 up to and
including 1).  Python's numbers are doubles and take the precision of the array they meet.
-/

namespace Implicit

variable {R : Type} [Field R] [LinearOrder R]

/-- `random_state.random(..., dtype=self.dtype) * 0.01` (`implicit/cpu/als.py:144-146`): `0.01` is rounded to a double by python and to
the type `r` of the array by numpy. -/
def roundAlsStart (d r : Rounding R) (u : R) : R := r.rnd (u * r.rnd (d.rnd (1 / 100)))

/-- `rs.random(..., dtype=self.dtype) - .5`, then `/= self.factors` (`implicit/cpu/bpr.pyx:159-160,167-168`, `implicit/gpu/bpr.py:99-100,108-109`). -/
def roundBprStart (r : Rounding R) (factors : Nat) (u : R) : R := r.rnd (r.rnd (u - 1 / 2) / r.rnd factors)

/-- Fresh item factors of BPR (`implicit/cpu/bpr.pyx:158-164`). -/
def roundBprItems (r : Rounding R) (factors : Nat) (rand : Nat → Nat → R) (itemids : List Nat) (i j : Nat) : R :=
  if itemids.count i = 0 then 0 else roundBprStart r factors (rand i j)

/-- Fresh user factors of BPR (`implicit/cpu/bpr.pyx:166-173`). -/
def roundBprUsers (r : Rounding R) (factors : Nat) (rand : Nat → Nat → R) (rows : List (List Nat)) (u j : Nat) : R :=
  if j = factors then 1
  else if (rows[u]?.getD []).length = 0 then 0
  else roundBprStart r factors (rand u j)

/-- The memory at the start of the epochs of a new BPR model. -/
def roundBprInit (r : Rounding R) (factors : Nat) (randItem randUser : Nat → Nat → R) (rows : List (List Nat)) : BprCell → R
  | .item i j => roundBprItems r factors randItem rows.flatten i j
  | .user u j => roundBprUsers r factors randUser rows u j

/-- `RandomState::uniform` (`implicit/gpu/random.cu:19-32`) for one draw `u` of cuRAND; the compiler may contract the product and the sum
(`fused`).  `low` and `high` are floats. -/
def deviceUniform (r : Rounding R) (fused : Bool) (low high u : R) : R :=
  if low ≠ 0 ∨ high ≠ 1 then
    if fused then r.rnd (u * r.rnd (high - low) + low) else r.rnd (r.rnd (u * r.rnd (high - low)) + low)
  else u

/-- `random_state.uniform(..., low=-0.5 / self.factors, high=0.5 / self.factors)`, then `.astype(self.dtype)`
(`implicit/gpu/als.py:126-136`): python divides in double precision `d`, the arguments are floats `r`, the factors have type `s`. -/
def roundGpuAlsStart (d r s : Rounding R) (fused : Bool) (factors : Nat) (u : R) : R :=
  s.rnd (deviceUniform r fused (r.rnd (d.rnd (-(1 / 2) / factors))) (r.rnd (d.rnd (1 / 2 / factors))) u)

end Implicit
