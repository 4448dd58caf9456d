import Verif.Model.Weights
/-!
# `normalize` of a matrix of integers (`implicit/nearest_neighbours.py:229-234`)

`X.data**2` has the type of `X.data`: numpy squares integers of `bits` bits modulo `2^bits`.
-/

namespace Implicit

/-- The square of a number of a signed array of `bits` bits. -/
def intSquare (bits : Nat) (v : Int) : Int := Int.bmod (v * v) (2 ^ bits)

/-- A `coo_matrix` of integers. -/
structure IntCoo where
  nrows : Nat
  entries : List (Nat × Nat × Int)

/-- The same numbers in floating point, `X.astype(float)`. -/
noncomputable def IntCoo.toReal (X : IntCoo) : Coo := ⟨X.nrows, X.entries.map fun e => (e.1, e.2.1, (e.2.2 : ℝ))⟩

/-- `normalize` (`implicit/nearest_neighbours.py:229-234`): only the squares are computed in integers; `bincount` converts its
weights to double precision and the quotient is one of floating point numbers. -/
noncomputable def normalizeInts (bits : Nat) (X : IntCoo) : Coo :=
  ⟨X.nrows, X.entries.map fun e => (e.1, e.2.1,
    (e.2.2 : ℝ) / Real.sqrt (bincountW (X.entries.map fun e => (e.1, (intSquare bits e.2.2 : ℝ))) e.1))⟩

end Implicit
