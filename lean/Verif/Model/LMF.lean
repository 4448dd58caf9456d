import Verif.Model.ALS
import Verif.Model.Parallel
import Mathlib.Analysis.SpecialFunctions.Exp
/-!
# Logistic matrix factorisation (`implicit/cpu/lmf.pyx`)

`f` is the number of columns of the factor matrices, `factors + 2`.  The functions `sigmoid` and `sqrt`
are parameters (`lmfSigmoid` is the code's formula over the reals); the random negative entries are
explicit arguments.
-/

namespace Implicit

variable {R : Type} [LinearOrder R] [Field R] {f : Nat}

/-- `implicit/cpu/lmf.pyx:220-226`, `sigmoid`. -/
noncomputable def lmfSigmoid (x : ℝ) : ℝ :=
  if 0 ≤ x then 1 / (1 + Real.exp (-x))
  else
    let z := Real.exp x
    z / (1 + z)

/-- The number of negative samples of a row with `seen` stored entries: `min(n_items, seen * neg_prop)`,
where `n_items = item_vectors.shape[1]` is the number of *columns* `f`
(`implicit/cpu/lmf.pyx:238,275`). -/
def lmfNegatives (f : Nat) (seen : Nat) (negProp : Int) : Nat :=
  (min (f : Int) ((seen : Int) * negProp)).toNat

/-- First loop over the stored entries: `deriv += data * item` (`implicit/cpu/lmf.pyx:259-262`). -/
def lmfPositive (d : Vec f R) (e : Vec f R × R) : Vec f R := fun a => d a + e.2 * e.1 a

/-- Second loop over the stored entries (`implicit/cpu/lmf.pyx:265-272`). -/
def lmfPositiveSig (sigm : R → R) (x : Vec f R) (d : Vec f R) (e : Vec f R × R) : Vec f R :=
  let z := sigm (dot x e.1) * e.2
  fun a => d a - z * e.1 a

/-- Loop over the negative samples (`implicit/cpu/lmf.pyx:275-284`). -/
def lmfNegative (sigm : R → R) (x : Vec f R) (d : Vec f R) (y : Vec f R) : Vec f R :=
  let z := sigm (dot x y)
  fun a => d a - z * y a

/-- The buffer `deriv` before the last loop. -/
def lmfDeriv (sigm : R → R) (x : Vec f R) (pos : List (Vec f R × R)) (neg : List (Vec f R)) : Vec f R :=
  neg.foldl (lmfNegative sigm x) (pos.foldl (lmfPositiveSig sigm x) (pos.foldl lmfPositive fun _ => 0))

/-- The update of a row with factors `x` and sums `s` of squared derivatives (Adagrad)
(`implicit/cpu/lmf.pyx:251-290`); rows without entries are skipped (`:253-254`). -/
def lmfRow (sigm sqrt : R → R) (eps lr reg : R) (pos : List (Vec f R × R)) (neg : List (Vec f R))
    (x s : Vec f R) : Vec f R × Vec f R :=
  if pos.isEmpty then (x, s)
  else
    let d : Vec f R := fun a => lmfDeriv sigm x pos neg a - reg * x a
    let s' : Vec f R := fun a => s a + d a * d a
    (fun a => x a + lr / sqrt (eps + s' a) * d a, s')

/-- The rows `user_vectors` and `deriv_sum_sq`. -/
structure LmfSide (f : Nat) (R : Type) where
  factors : List (Vec f R)
  sums : List (Vec f R)

/-- Factors for the drawn negatives: `item_vectors[indices[index]]` (`implicit/cpu/lmf.pyx:276-277`).
Indices beyond the arrays are undefined behaviour. -/
def lmfNegRows (indices : List Nat) (Y : List (Vec f R)) (draws : List Nat) :
    Except Err (List (Vec f R)) :=
  draws.mapM fun d =>
    match indices[d]? with
    | none => .error .undefinedBehaviour
    | some i =>
      match Y[i]? with
      | none => .error .undefinedBehaviour
      | some y => .ok y

/-- Columns of the stored entries, row after row. -/
def lmfIndices (C : SpRows R) : List Nat := C.flatten.map Prod.fst

/-- The random indices of a row (`implicit/cpu/lmf.pyx:253-254,275-276`): none for a row without entries;
`draw k` is the `k`-th number generated while working on the row. -/
def lmfRowDraws (f : Nat) (negProp : Int) (seen : Nat) (draw : Nat → Nat) : List Nat :=
  if seen = 0 then [] else (List.range (lmfNegatives f seen negProp)).map draw

/-- One row of `lmf_update` (`implicit/cpu/lmf.pyx:251-290`).  `draws u` are the random indices generated
for row `u`.  Rows beyond the sparse matrix or `deriv_sum_sq` are undefined behaviour. -/
def lmfRowAt (sigm sqrt : R → R) (eps lr reg : R) (negProp : Int) (C : SpRows R) (Y : List (Vec f R))
    (draws : Nat → Nat → Nat) (sums : List (Vec f R)) (u : Nat) (x : Vec f R) :
    Except Err (Vec f R × Vec f R) :=
  match C[u]?, sums[u]? with
  | some row, some s => do
    let pos ← rowEntries .undefinedBehaviour Y row
    let neg ← lmfNegRows (lmfIndices C) Y (lmfRowDraws f negProp row.length (draws u))
    pure (lmfRow sigm sqrt eps lr reg pos neg x s)
  | _, _ => .error .undefinedBehaviour

/-- `lmf_update` (`implicit/cpu/lmf.pyx:231-292`), rows one after the other; see `C38_parallel` for the
parallel loop. -/
def lmfUpdate (sigm sqrt : R → R) (eps lr reg : R) (negProp : Int) (C : SpRows R) (Y : List (Vec f R))
    (draws : Nat → Nat → Nat) (side : LmfSide f R) : Except Err (LmfSide f R) := do
  let out ← side.factors.zipIdx.mapM fun p =>
    lmfRowAt sigm sqrt eps lr reg negProp C Y draws side.sums p.2 p.1
  pure ⟨out.map Prod.fst, out.map Prod.snd ++ side.sums.drop side.factors.length⟩

/-- `X[:, j] = 1.0`. -/
def setColumn (j : Fin f) (X : List (Vec f R)) : List (Vec f R) :=
  X.map fun x => Function.update x j 1

/-- The state during the epochs. -/
structure LmfState (f : Nat) (R : Type) where
  user : LmfSide f R
  item : LmfSide f R

/-- The draws of one epoch, for every user row and every item row. -/
structure LmfDraws where
  user : Nat → Nat → Nat
  item : Nat → Nat → Nat

/-- One epoch (`implicit/cpu/lmf.pyx:182-194`); columns `-2` and `-1` of `f = factors + 2`. -/
def lmfEpoch {factors : Nat} (sigm sqrt : R → R) (eps lr reg : R) (negProp : Int) (C Ct : SpRows R)
    (st : LmfState (factors + 2) R) (d : LmfDraws) : Except Err (LmfState (factors + 2) R) := do
  let user ← lmfUpdate sigm sqrt eps lr reg negProp C st.item.factors d.user st.user
  let user := { user with factors := setColumn ⟨factors, by omega⟩ user.factors }
  let item ← lmfUpdate sigm sqrt eps lr reg negProp Ct user.factors d.item st.item
  let item := { item with factors := setColumn ⟨factors + 1, by omega⟩ item.factors }
  pure ⟨user, item⟩

/-- The epochs (`implicit/cpu/lmf.pyx:179-197`). -/
def lmfEpochs {factors : Nat} (sigm sqrt : R → R) (eps lr reg : R) (negProp : Int) (C Ct : SpRows R) :
    List LmfDraws → LmfState (factors + 2) R → Except Err (LmfState (factors + 2) R)
  | [], st => .ok st
  | d :: ds, st => do
    let st ← lmfEpoch sigm sqrt eps lr reg negProp C Ct st d
    lmfEpochs sigm sqrt eps lr reg negProp C Ct ds st

/-- Fresh factors (`implicit/cpu/lmf.pyx:153-165`): normal draws, a column set to one, rows without
stored entries set to zero. -/
def lmfInit (n : Nat) (rand : Nat → Vec f R) (one : Fin f) (count : Nat → Nat) : List (Vec f R) :=
  (List.range n).map fun u => if count u = 0 then fun _ => 0 else Function.update (rand u) one 1

/-- `fit` (`implicit/cpu/lmf.pyx:112-199`) without the final NaN check (see C21).  `user`, `item`: the
factors of an earlier fit, if any. -/
def lmfFit {factors : Nat} (sigm sqrt : R → R) (eps lr reg : R) (negProp : Int) (cols : Nat) (C : SpRows R)
    (randItem randUser : Nat → Vec (factors + 2) R) (item user : Option (List (Vec (factors + 2) R)))
    (draws : List LmfDraws) : Except Err (LmfState (factors + 2) R) :=
  let Ct := transposeRows cols C
  let Y := item.getD (lmfInit cols randItem ⟨factors + 1, by omega⟩ fun i => (lmfIndices C).count i)
  let X := user.getD (lmfInit C.length randUser ⟨factors, by omega⟩ fun u => (C[u]?.getD []).length)
  lmfEpochs sigm sqrt eps lr reg negProp C Ct draws
    ⟨⟨X, List.replicate C.length fun _ => 0⟩, ⟨Y, List.replicate cols fun _ => 0⟩⟩

/-! ## The parallel loop -/

/-- Shared memory of `lmf_update`: `user_vectors[u, j]` and `deriv_sum_sq[u, j]`. -/
inductive LmfCell (f : Nat) where
  | factor (u : Nat) (j : Fin f)
  | sum (u : Nat) (j : Fin f)
  deriving DecidableEq

inductive LmfInstr (f : Nat) (R : Type) where
  /-- `memset(deriv, 0, ...)` (`implicit/cpu/lmf.pyx:256`) -/
  | init
  /-- one round of the first loop over the entries (`:258-262`) -/
  | pos (e : Vec f R × R)
  /-- one round of the second loop (`:265-272`) -/
  | posSig (u : Nat) (e : Vec f R × R)
  /-- one negative sample (`:275-284`) -/
  | neg (u : Nat) (y : Vec f R)
  /-- `deriv[_] -= reg * user_vectors[u, _]` and `deriv_sum_sq[u, _] += ...` (`:286-287`) -/
  | accumulate (u : Nat) (j : Fin f)
  /-- `user_vectors[u, _] += ...` (`:290`) -/
  | store (u : Nat) (j : Fin f)

/-- Effect of the instructions; the scratch memory is the buffer `deriv`. -/
def lmfAct (sigm sqrt : R → R) (eps lr reg : R) : Act (LmfInstr f R) (Vec f R) (LmfCell f) R
  | .init, _, m => (fun _ => 0, m)
  | .pos e, d, m => (lmfPositive d e, m)
  | .posSig u e, d, m => (lmfPositiveSig sigm (fun j => m (.factor u j)) d e, m)
  | .neg u y, d, m => (lmfNegative sigm (fun j => m (.factor u j)) d y, m)
  | .accumulate u j, d, m =>
    let v := d j - reg * m (.factor u j)
    (Function.update d j v, Function.update m (.sum u j) (m (.sum u j) + v * v))
  | .store u j, d, m =>
    (d, Function.update m (.factor u j)
      (m (.factor u j) + lr / sqrt (eps + m (.sum u j)) * d j))

/-- A row with entries `pos` and negative samples `neg` (`implicit/cpu/lmf.pyx:251-290`). -/
def lmfProg (pos : List (Vec f R × R)) (neg : List (Vec f R)) (u : Nat) : List (LmfInstr f R) :=
  if pos.isEmpty then []
  else [.init] ++ pos.map .pos ++ pos.map (.posSig u) ++ neg.map (.neg u) ++
    (List.finRange f).flatMap fun j => [.accumulate u j, .store u j]

end Implicit
