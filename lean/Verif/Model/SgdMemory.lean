import Verif.Model.BPR
import Verif.Model.LMF
import Verif.Spec.ArrayLayout
/-!
# The loops of BPR and LMF on the memory of numpy arrays (`implicit/cpu/bpr.pyx:246-303`, `implicit/cpu/lmf.pyx:229-292`)

`floating[:, :]` accepts arrays with any strides.  `bpr_update` takes the address of the first element of a row and reads
on from there; `lmf_update` indexes with row and column.  `@cython.boundscheck(False)`: an access outside the memory of an
array is not noticed by the code; here the thread remembers it in `bad`.  The arrays do not share memory.  As in `BPR.lean`
and `LMF.lean`, an execution is any interleaving of the instructions of the threads.
-/

namespace Implicit

open Spec (ArrayLayout)

/-- The arrays: `X` is `user_factors` (`user_vectors`), `Y` is `item_factors` (`item_vectors`), `S` is `deriv_sum_sq`. -/
inductive SgdArray where
  | X | Y | S
  deriving DecidableEq

/-- What a thread keeps to itself, and whether it has left the memory of an array. -/
structure Watched (Sc : Type) where
  regs : Sc
  bad : Bool

variable {R : Type} [LinearOrder R] [Field R]

/-! ## BPR -/

/-- `user[j]` with `user = &X[u, 0]` (`implicit/cpu/bpr.pyx:281`): the strides between columns are not used. -/
def rowPointer (L : ArrayLayout) (u j : Nat) : Nat := u * L.rowStride + j

/-- A load through a row pointer. -/
def ptrLoad (a : SgdArray) (L : ArrayLayout) (u j : Nat) (m : SgdArray × Nat → R) (w : Watched (BprScratch R))
    (set : R → BprScratch R) : Watched (BprScratch R) × (SgdArray × Nat → R) :=
  (⟨set (m (a, rowPointer L u j)), w.bad || decide (L.size ≤ rowPointer L u j)⟩, m)

/-- A store through a row pointer. -/
def ptrStore (a : SgdArray) (L : ArrayLayout) (u j : Nat) (m : SgdArray × Nat → R) (w : Watched (BprScratch R)) (v : R) :
    Watched (BprScratch R) × (SgdArray × Nat → R) :=
  (⟨w.regs, w.bad || decide (L.size ≤ rowPointer L u j)⟩, Function.update m (a, rowPointer L u j) v)

/-- The instructions of `bpr_update` (`implicit/cpu/bpr.pyx:276-301`) on memory. -/
def bprActMem (sig : R → R) (lr reg : R) (LX LY : ArrayLayout) :
    Act BprInstr (Watched (BprScratch R)) (SgdArray × Nat) R
  | .skip, w, m => (⟨{ w.regs with skipped := w.regs.skipped + 1 }, w.bad⟩, m)
  | .zero, w, m => (⟨{ w.regs with score := 0 }, w.bad⟩, m)
  | .loadUser t j, w, m => ptrLoad .X LX t.user j m w fun v => { w.regs with a := v }
  | .loadLiked t j, w, m => ptrLoad .Y LY t.liked j m w fun v => { w.regs with b := v }
  | .loadDisliked t j, w, m => ptrLoad .Y LY t.disliked j m w fun v => { w.regs with c := v }
  | .score, w, m => (⟨{ w.regs with score := w.regs.score + w.regs.a * (w.regs.b - w.regs.c) }, w.bad⟩, m)
  | .logistic, w, m =>
    (⟨{ w.regs with
        z := sig w.regs.score
        correct := if sig w.regs.score < 1 / 2 then w.regs.correct + 1 else w.regs.correct }, w.bad⟩, m)
  | .keep, w, m => (⟨{ w.regs with temp := w.regs.a }, w.bad⟩, m)
  | .storeUser t j, w, m =>
    ptrStore .X LX t.user j m w (w.regs.a + lr * (w.regs.z * (w.regs.b - w.regs.c) - reg * w.regs.a))
  | .storeLiked t j, w, m =>
    ptrStore .Y LY t.liked j m w (w.regs.b + lr * (w.regs.z * w.regs.temp - reg * w.regs.b))
  | .storeDisliked t j, w, m =>
    ptrStore .Y LY t.disliked j m w (w.regs.c + lr * (-w.regs.z * w.regs.temp - reg * w.regs.c))
  | .storeLikedBias t j, w, m =>
    ptrStore .Y LY t.liked j m w (w.regs.b + lr * (w.regs.z - reg * w.regs.b))
  | .storeDislikedBias t j, w, m =>
    ptrStore .Y LY t.disliked j m w (w.regs.c + lr * (-w.regs.z - reg * w.regs.c))

/-- One call of `bpr_update` on memory: `factors = X.shape[1] - 1` (`implicit/cpu/bpr.pyx:262`) is the number of factors
the instructions of the schedule are for. -/
def bprEpochMem {Th : Type} [DecidableEq Th] (sig : R → R) (lr reg : R) (LX LY : ArrayLayout) (σ : Th → BprScratch R)
    (e : BprEpoch Th) (m : SgdArray × Nat → R) : (Th → Watched (BprScratch R)) × (SgdArray × Nat → R) :=
  execInterleaved (bprActMem sig lr reg LX LY) e.schedule (fun t => ⟨(σ t).fresh, false⟩) m

/-! ## LMF -/

/-- The instructions of `lmf_update` for `n` columns; items are row numbers of `item_vectors`. -/
inductive LmfMemInstr (n : Nat) (R : Type) where
  /-- `memset(deriv, 0, ...)` (`implicit/cpu/lmf.pyx:256`) -/
  | init
  /-- one round of the first loop over the entries (`:258-262`) -/
  | pos (i : Nat) (c : R)
  /-- one round of the second loop (`:265-272`) -/
  | posSig (u i : Nat) (c : R)
  /-- one negative sample (`:275-284`) -/
  | neg (u i : Nat)
  /-- `deriv[_] -= reg * user_vectors[u, _]` and `deriv_sum_sq[u, _] += ...` (`:286-287`) -/
  | accumulate (u : Nat) (j : Fin n)
  /-- `user_vectors[u, _] += ...` (`:290`) -/
  | store (u : Nat) (j : Fin n)

variable {n : Nat}

/-- `M[u, 0], M[u, 1], ...` (`M[u, _]` uses both strides). -/
def sgdRow (a : SgdArray) (L : ArrayLayout) (m : SgdArray × Nat → R) (u : Nat) : Vec n R := fun j =>
  m (a, u * L.rowStride + j.val * L.colStride)

/-- Is one of the `n` elements outside? -/
def rowOutside (n : Nat) (L : ArrayLayout) (u : Nat) : Bool :=
  (List.range n).any fun j => decide (L.size ≤ u * L.rowStride + j * L.colStride)

/-- The instructions of `lmf_update` on memory. -/
def lmfActMem (sigm sqrt : R → R) (eps lr reg : R) (LX LY LS : ArrayLayout) :
    Act (LmfMemInstr n R) (Watched (Vec n R)) (SgdArray × Nat) R
  | .init, w, m => (⟨fun _ => 0, w.bad⟩, m)
  | .pos i c, w, m =>
    (⟨fun a => w.regs a + c * (sgdRow .Y LY m i : Vec n R) a, w.bad || rowOutside n LY i⟩, m)
  | .posSig u i c, w, m =>
    let z := sigm (dot (sgdRow .X LX m u : Vec n R) (sgdRow .Y LY m i)) * c
    (⟨fun a => w.regs a - z * (sgdRow .Y LY m i : Vec n R) a, w.bad || rowOutside n LX u || rowOutside n LY i⟩, m)
  | .neg u i, w, m =>
    let z := sigm (dot (sgdRow .X LX m u : Vec n R) (sgdRow .Y LY m i))
    (⟨fun a => w.regs a - z * (sgdRow .Y LY m i : Vec n R) a, w.bad || rowOutside n LX u || rowOutside n LY i⟩, m)
  | .accumulate u j, w, m =>
    let x := u * LX.rowStride + j.val * LX.colStride
    let s := u * LS.rowStride + j.val * LS.colStride
    let v := w.regs j - reg * m (.X, x)
    (⟨Function.update w.regs j v, w.bad || decide (LX.size ≤ x) || decide (LS.size ≤ s)⟩,
      Function.update m (.S, s) (m (.S, s) + v * v))
  | .store u j, w, m =>
    let x := u * LX.rowStride + j.val * LX.colStride
    let s := u * LS.rowStride + j.val * LS.colStride
    (⟨w.regs, w.bad || decide (LX.size ≤ x) || decide (LS.size ≤ s)⟩,
      Function.update m (.X, x) (m (.X, x) + lr / sqrt (eps + m (.S, s)) * w.regs j))

/-- A row with entries `row` and negative items `negs` (`implicit/cpu/lmf.pyx:251-290`). -/
def lmfMemProg (row : List (Nat × R)) (negs : List Nat) (u : Nat) : List (LmfMemInstr n R) :=
  if row.isEmpty then []
  else [.init] ++ row.map (fun e => .pos e.1 e.2) ++ row.map (fun e => .posSig u e.1 e.2) ++ negs.map (.neg u) ++
    (List.finRange n).flatMap fun j => [.accumulate u j, .store u j]

/-- The program of row `u`: `indices[index]` for every number drawn (`implicit/cpu/lmf.pyx:275-277`).  The drawn numbers are
below the number of stored entries (C44). -/
def lmfMemTask (n : Nat) (negProp : Int) (C : SpRows R) (draws : Nat → Nat → Nat) (u : Nat) : List (LmfMemInstr n R) :=
  match C[u]? with
  | none => []
  | some row =>
    lmfMemProg row ((lmfRowDraws n negProp row.length (draws u)).map fun d => (lmfIndices C).getD d 0) u

end Implicit
