import Verif.Model.ALS
import Verif.Model.Parallel
/-!
# The kernels of `implicit/gpu/als.cu` on flat device memory

Device matrices are row-major arrays: element `(i, j)` of a matrix with `f` columns is at address
`i * f + j`.  A block has one thread per factor.  The threads of a block run in lock step, one statement
at a time, and `dot` returns the sum over the threads (what it really does is C52); the blocks are
interleaved arbitrarily.  Simplifications: exact arithmetic (no half precision, no NaN, so
`als.cu:101-108` never fires), addresses do not overflow (C49), reads outside an array give an arbitrary
value of the function representing it.
-/

namespace Implicit

variable {R : Type} [LinearOrder R] [Field R] {f : Nat}

/-- A `CSRMatrix` on the device (`implicit/gpu/matrix.cu:206-227`). -/
structure DevCsr (R : Type) where
  indptr : Nat → Nat
  indices : Nat → Nat
  data : Nat → R

/-- `for (int index = indptr[u]; index < indptr[u + 1]; ++index)` (`als.cu:54,78,223`). -/
def DevCsr.range (d : DevCsr R) (u : Nat) : List Nat :=
  List.range' (d.indptr u) (d.indptr (u + 1) - d.indptr u)

/-- The grid-stride loop `for (int u = start; u < n; u += stride)` (`als.cu:38,211,241`); a stride of 0
does not occur. -/
def gridStride (stride n u : Nat) : List Nat :=
  if _ : u < n ∧ 0 < stride then u :: gridStride stride n (u + stride) else []
termination_by n - u
decreasing_by omega

/-! ## `calculate_yty` (`als.cu:113-152`) -/

/-- `cublasSgemm(handle, CUBLAS_OP_N, CUBLAS_OP_T, m, n, k, 1, A, lda, B, ldb, 0, C, ldc)`: cuBLAS
matrices are column-major, so `C[i + j * ldc] = sum over l of A[i + l * lda] * B[j + l * ldb]` for
`i < m`, `j < n`; the rest of `C` is kept. -/
def gemmNT (m n k : Nat) (A : Nat → R) (lda : Nat) (B : Nat → R) (ldb : Nat) (C : Nat → R) (ldc : Nat) :
    Nat → R := fun a =>
  if a % ldc < m ∧ a / ldc < n then
    ((List.range k).map fun l => A (a % ldc + l * lda) * B (a / ldc + l * ldb)).sum
  else C a

/-- `l2_regularize_kernel` (`als.cu:113-116`): thread `t` adds to element `(t, t)`; the threads run in the
order `ts`. -/
def l2Regularize (f : Nat) (reg : R) (ts : List Nat) (G : Nat → R) : Nat → R :=
  ts.foldl (fun G t => Function.update G (t * f + t) (G (t * f + t) + reg)) G

/-- `calculate_yty` (`als.cu:122-152`) on a matrix of `items` rows; `old` is the previous content of the
output matrix. -/
def deviceYtY (f items : Nat) (reg : R) (ts : List Nat) (Y old : Nat → R) : Nat → R :=
  l2Regularize f reg ts (gemmNT f f items Y f Y f old f)

/-! ## `least_squares_cg_kernel` (`als.cu:23-111`) -/

/-- The registers of the threads of a block, one component per thread, the shared array `P`, and `rsold`,
which is the same in all threads.  `skip` is set by `continue` (`als.cu:70`), `brk` by `break` (`:94`). -/
structure BlockRegs (f : Nat) (R : Type) where
  x : Vec f R
  r : Vec f R
  p : Vec f R
  Ap : Vec f R
  P : Vec f R
  rsold : R
  skip : Bool
  brk : Bool

inductive BlockInstr (f : Nat) where
  /-- `float x_value = x[threadIdx.x]` (`:41`) -/
  | load (u : Nat)
  /-- thread `t` of `x[threadIdx.x] = 0` (`:45`) -/
  | zero (u : Nat) (t : Fin f)
  /-- `r = 0` (`:50`) -/
  | residInit
  /-- `r -= x[i] * YtY[i * factors + threadIdx.x]` (`:52`) -/
  | resid (u : Nat) (i : Fin f)
  /-- one round of the loop over the stored entries (`:55-63`) -/
  | residEntry (index : Nat)
  /-- `P[threadIdx.x] = p = r`, `rsold = dot(r, r)`, `continue` if small (`:65-70`) -/
  | start
  /-- `Ap = 0` (`:74`) -/
  | apInit
  /-- `Ap += P[i] * YtY[i * factors + threadIdx.x]` (`:76`) -/
  | ap (i : Fin f)
  /-- one round of the loop over the stored entries (`:79-84`) -/
  | apEntry (index : Nat)
  /-- the CG update and the test for stopping (`:88-98`) -/
  | update
  /-- thread `t` of `x[threadIdx.x] = x_value` (`:109`) -/
  | store (u : Nat) (t : Fin f)

/-- `Y[indices[index] * factors + threadIdx.x]`. -/
def entryFactor (f : Nat) (d : DevCsr R) (Y : Nat → R) (index : Nat) : Vec f R :=
  fun t => Y (d.indices index * f + t.val)

/-- Effect of the statements on the registers of the block and on `X`; statements skipped by `continue`
and `break` do nothing. -/
def blockAct (d : DevCsr R) (Y G : Nat → R) (small : R) :
    Act (BlockInstr f) (BlockRegs f R) Nat R
  | .load u, s, X => ({ s with x := fun t => X (u * f + t.val), skip := false, brk := false }, X)
  | .zero u t, s, X => (s, Function.update X (u * f + t.val) 0)
  | .residInit, s, X => ({ s with r := fun _ => 0 }, X)
  | .resid u i, s, X =>
    ({ s with r := fun t => s.r t - X (u * f + i.val) * G (i.val * f + t.val) }, X)
  | .residEntry index, s, X =>
    let Yi : Vec f R := entryFactor f d Y index
    let c := d.data index
    ({ s with r := fun t =>
        if 0 < c then s.r t + (c - (c - 1) * dot Yi s.x) * Yi t
        else s.r t + (-(c * -1 - 1) * dot Yi s.x) * Yi t }, X)
  | .start, s, X =>
    let rsold := dot s.r s.r
    ({ s with p := s.r, P := s.r, rsold := rsold, skip := decide (rsold < small) }, X)
  | .apInit, s, X => (if s.skip || s.brk then s else { s with Ap := fun _ => 0 }, X)
  | .ap i, s, X =>
    (if s.skip || s.brk then s
      else { s with Ap := fun t => s.Ap t + s.P i * G (i.val * f + t.val) }, X)
  | .apEntry index, s, X =>
    let Yi : Vec f R := entryFactor f d Y index
    let c := if d.data index < 0 then d.data index * -1 else d.data index
    (if s.skip || s.brk then s
      else { s with Ap := fun t => s.Ap t + (c - 1) * dot Yi s.p * Yi t }, X)
  | .update, s, X =>
    (if s.skip || s.brk then s
      else
        let alpha := s.rsold / dot s.p s.Ap
        let x : Vec f R := fun t => s.x t + alpha * s.p t
        let r : Vec f R := fun t => s.r t - alpha * s.Ap t
        let rsnew := dot r r
        if rsnew < small then { s with x := x, r := r, brk := true }
        else
          let p : Vec f R := fun t => r t + rsnew / s.rsold * s.p t
          { s with x := x, r := r, p := p, P := p, rsold := rsnew }, X)
  | .store u t, s, X => (s, if s.skip then X else Function.update X (u * f + t.val) (s.x t))

/-- One CG round (`als.cu:72-99`). -/
def blockRound (f : Nat) (d : DevCsr R) (u : Nat) : List (BlockInstr f) :=
  [.apInit] ++ (List.finRange f).map .ap ++ (d.range u).map .apEntry ++ [.update]

/-- The body of the loop for row `u` (`als.cu:39-109`). -/
def blockRow (f : Nat) (d : DevCsr R) (steps : Nat) (u : Nat) : List (BlockInstr f) :=
  if d.indptr u = d.indptr (u + 1) then [.load u] ++ (List.finRange f).map (.zero u)
  else [.load u, .residInit] ++ (List.finRange f).map (.resid u) ++ (d.range u).map .residEntry ++
    [.start] ++ (List.replicate steps (blockRound f d u)).flatten ++ (List.finRange f).map (.store u)

/-- `calculate_yty` followed by `least_squares` (`als.cu:122-197`, `als.py:151-155`) on a grid of `grid`
blocks: from the arrays `X` (`users` rows) and `Y` (`items` rows) the array `X'` can result. -/
def DevSweep (f : Nat) (d : DevCsr R) (small reg : R) (steps grid users items : Nat) (X Y X' : Nat → R) :
    Prop :=
  ∃ (ts : List Nat) (old : Nat → R) (w : List (Fin grid × BlockInstr f)) (σ : Fin grid → BlockRegs f R),
    ts.Perm (List.range f) ∧
    IsSchedule (fun u => blockRow f d steps u) (fun b : Fin grid => gridStride grid users b.val) w ∧
    X' = (execInterleaved (blockAct d Y (deviceYtY f items reg ts Y old) small) w σ X).2

/-- `n` iterations of `fit` (`als.py:149-155`). -/
inductive DevTrain (f : Nat) (dui diu : DevCsr R) (small reg : R) (steps grid users items : Nat) :
    Nat → (Nat → R) → (Nat → R) → (Nat → R) → (Nat → R) → Prop where
  | zero (X Y) : DevTrain f dui diu small reg steps grid users items 0 X Y X Y
  | succ {n X Y X' Y' X'' Y''} :
    DevSweep f dui small reg steps grid users items X Y X' →
    DevSweep f diu small reg steps grid items users Y X' Y' →
    DevTrain f dui diu small reg steps grid users items n X' Y' X'' Y'' →
    DevTrain f dui diu small reg steps grid users items (n + 1) X Y X'' Y''

/-! ## `calculate_loss_kernel` (`als.cu:199-281`) -/

/-- Accumulators of a block in the loss kernel (`als.cu:209`). -/
structure LossRegs (R : Type) where
  loss : R
  userNorm : R
  itemNorm : R
  conf : R

/-- The rows loop (`als.cu:212-238`); the accumulators are the same in all threads. -/
def lossUser (f : Nat) (d : DevCsr R) (X Y G : Nat → R) (s : LossRegs R) (u : Nat) : LossRegs R :=
  let x : Vec f R := fun t => X (u * f + t.val)
  let r0 : Vec f R := (List.finRange f).foldl
    (fun r i => fun t => r t + x i * G (i.val * f + t.val)) (fun _ => 0)
  let out := (d.range u).foldl (fun (a : Vec f R × R × R) index =>
    let Yi : Vec f R := entryFactor f d Y index
    let c := d.data index
    if 0 < c then
      (fun t => a.1 t + ((c - 1) * dot Yi x - 2 * c) * Yi t, a.2.1 + c, a.2.2 + c)
    else
      (fun t => a.1 t + ((c * -1 - 1) * dot Yi x) * Yi t, a.2.1 + c * -1, a.2.2 + c * -1))
    (r0, s.loss, s.conf)
  { s with loss := out.2.1 + dot x out.1, conf := out.2.2, userNorm := s.userNorm + dot x x }

/-- The items loop (`als.cu:241-244`). -/
def lossItem (f : Nat) (Y : Nat → R) (s : LossRegs R) (i : Nat) : LossRegs R :=
  let y : Vec f R := fun t => Y (i * f + t.val)
  { s with itemNorm := s.itemNorm + dot y y }

/-- What thread 0 of block `b` of a grid of `grid` blocks adds to `output[0]` and `output[1]`
(`als.cu:209-250`). -/
def lossBlock (f : Nat) (d : DevCsr R) (grid users items : Nat) (X Y G : Nat → R) (reg : R) (b : Nat) :
    R × R :=
  let s := (gridStride grid users b).foldl (lossUser f d X Y G) ⟨0, 0, 0, 0⟩
  let s := (gridStride grid items b).foldl (lossItem f Y) s
  (s.loss + reg * (s.itemNorm + s.userNorm), s.conf)

/-- `calculate_loss` (`als.cu:253-281`): the `atomicAdd`s of the blocks to `output[0]` happen in the
order `order`, those to `output[1]` in the order `order'`; the sparse matrix is `rows` x `cols` with `nnz`
stored entries. -/
def devLoss (f : Nat) (d : DevCsr R) (grid users items rows cols nnz : Nat) (X Y G : Nat → R) (reg : R)
    (order order' : List Nat) : R :=
  let part := lossBlock f d grid users items X Y G reg
  let out0 := order.foldl (fun o b => o + (part b).1) 0
  let out1 := order'.foldl (fun o b => o + (part b).2) 0
  out0 / (out1 + ((rows * cols : Nat) : R) - (nnz : R))

end Implicit
