import Verif.Spec.RowError
/-!
# Specification: the error of a training loss computed in floating point

`X` and `Y` are the factors of users and items, `C` the stored confidences.
-/

namespace Implicit.Spec

variable {f : Nat}

/-- The terms of the loss of one user, added without cancellation. -/
noncomputable def rowLossSize (Y : List (Fin f → ℝ)) (row : List (Nat × ℝ)) (x : Fin f → ℝ) : ℝ :=
  (row.map fun e => |e.2|).sum + (systemSize Y row 0 * length x + 2 * targetSize Y row) * length x

/-- The terms of the regularised loss, added without cancellation. -/
noncomputable def lossSize (C : List (List (Nat × ℝ))) (X Y : List (Fin f → ℝ)) (reg : ℝ) : ℝ :=
  ∑ u : Fin X.length, rowLossSize Y (C[u.1]?.getD []) X[u] +
    reg * ((Y.map fun y => length y ^ 2).sum + (X.map fun x => length x ^ 2).sum)

/-- The terms of the sum of all confidences, added without cancellation. -/
noncomputable def weightSize (C : List (List (Nat × ℝ))) (rows cols : Nat) : ℝ :=
  (C.map fun row => (row.map fun e => |e.2|).sum).sum + rows * cols + (C.map List.length).sum

/-- The error of a quotient `n / w` of two sums whose terms have the sizes `N` and `W`, with a relative error `g` of each sum and `v` of the
division. -/
noncomputable def quotientError (g v n w N W : ℝ) : ℝ := (1 + v) * (g * (N + |n / w| * W) / (w - g * W)) + v * |n / w|

/-- How much rounding can enlarge a term of the loss: `u` is the error of an operation on `f` factors, of which the Gram matrix takes those of
`items` items and a row those of `stored` stored items; `v` is the error of an operation on the sums, of which a thread does `K`, and there
are `t` threads. -/
noncomputable def lossGrowth (u v : ℝ) (f items stored K t : Nat) : ℝ := (1 + u) ^ (items + stored + 2 * f + 8) * (1 + v) ^ (K + t + 3)

/-- Which thread handles which of `n` rows: every row is handled once. -/
def Schedule (n : Nat) (threads : List (List Nat)) : Prop := threads.flatten.Perm (List.range n)

end Implicit.Spec
