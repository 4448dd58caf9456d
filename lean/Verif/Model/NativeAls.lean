import Verif.Model.NativeCsr
/-!
# The native loops of ALS in memory: `implicit/cpu/_als.pyx`

`Verif.Model.ALS` computes with vectors.  Here the loops work on arrays as the code does: `X` and `Y` are memory views with any strides
(`floating[:, :]`), `&X[u, 0]` is the address `u * sx` where `sx` is the stride of the rows, BLAS takes `N` consecutive numbers from
there; only `Y[i, j]` (`implicit/cpu/_als.pyx:123`) uses the stride `cy` of the columns.  Strides are counted in elements.
Every thread has buffers from `malloc` whose contents are unknown at first and stale afterwards, and all arithmetic is done by calls of
BLAS and LAPACK with pointers.

A cell of memory that was never written is `none`; reading it, or leaving an array, is undefined behaviour.  BLAS and LAPACK by
contract, with exact arithmetic: `symv` and `posv` with `"U"` read only the triangle `A[i + j * N]`, `i ≤ j`; with `beta = 0` the
target of `symv` is not read; `posv` leaves something unknown in `A`.
-/

namespace Implicit

variable {R : Type} [LinearOrder R] [Field R]

/-- An array or a buffer. -/
abbrev Buf (R : Type) := List (Option R)

/-- Read `n` cells from address `off`. -/
def bufRead (b : Buf R) (off n : Nat) : Except Err (List R) :=
  if off + n ≤ b.length then
    ((b.drop off).take n).mapM fun c => match c with
      | some v => .ok v
      | none => .error .undefinedBehaviour
  else .error .undefinedBehaviour

/-- Write cells from address `off` on. -/
def bufWrite (b : Buf R) (off : Nat) (vs : List R) : Except Err (Buf R) :=
  if off + vs.length ≤ b.length then .ok (b.take off ++ vs.map some ++ b.drop (off + vs.length))
  else .error .undefinedBehaviour

/-! ## BLAS and LAPACK -/

/-- `dot(&N, x, &one, y, &one)`. -/
def blasDot (N : Nat) (x : Buf R) (ox : Nat) (y : Buf R) (oy : Nat) : Except Err R := do
  let xs ← bufRead x ox N
  let ys ← bufRead y oy N
  pure (List.zipWith (· * ·) xs ys).sum

/-- `axpy(&N, &t, x, &one, y, &one)`. -/
def blasAxpy (N : Nat) (t : R) (x : Buf R) (ox : Nat) (y : Buf R) (oy : Nat) : Except Err (Buf R) := do
  let xs ← bufRead x ox N
  let ys ← bufRead y oy N
  bufWrite y oy (List.zipWith (fun a b => b + t * a) xs ys)

/-- `scal(&N, &t, x, &one)`. -/
def blasScal (N : Nat) (t : R) (x : Buf R) (ox : Nat) : Except Err (Buf R) := do
  let xs ← bufRead x ox N
  bufWrite x ox (xs.map fun a => t * a)

/-- The symmetric matrix that `"U"` takes from an array with leading dimension `N`. -/
def upper (N : Nat) (cells : List R) (i j : Nat) : R :=
  if i ≤ j then cells.getD (i + j * N) 0 else cells.getD (j + i * N) 0

/-- `symv(b"U", &N, &t, A, &N, x, &one, &zero, y, &one)`. -/
def blasSymv (N : Nat) (t : R) (A x : Buf R) (ox : Nat) (y : Buf R) : Except Err (Buf R) := do
  let cells ← bufRead A 0 (N * N)
  let xs ← bufRead x ox N
  bufWrite y 0 ((List.range N).map fun i => t * (List.zipWith (fun j x => upper N cells i j * x) (List.range N) xs).sum)

/-- `memcpy(dst, src, sizeof(floating) * n)`. -/
def memCopy (n : Nat) (src : Buf R) (os : Nat) (dst : Buf R) (od : Nat) : Except Err (Buf R) := do
  let vs ← bufRead src os n
  bufWrite dst od vs

/-- `memset(dst, 0, sizeof(floating) * n)`. -/
def memZero (n : Nat) (dst : Buf R) (od : Nat) : Except Err (Buf R) := bufWrite dst od (List.replicate n 0)

/-- `posv(b"U", &N, &one, A, &N, b, &N, &err)`: the new `A` and `b`, and whether `err` is 0.  `junk` is what is left in `A`, and in
`b` after an error. -/
def lapackPosv (N : Nat) (S : Solver N R) (junk : List R → List R) (A b : Buf R) : Except Err (Buf R × Buf R × Bool) := do
  let cells ← bufRead A 0 (N * N)
  let bs ← bufRead b 0 N
  let A ← bufWrite A 0 (junk cells)
  match S.solve (fun i j => upper N cells i j) (fun i => bs.getD i 0) with
  | some x => do
    let b ← bufWrite b 0 (List.ofFn x)
    pure (A, b, true)
  | none => do
    let b ← bufWrite b 0 (junk bs)
    pure (A, b, false)

/-! ## Conjugate gradient -/

/-- The buffers of one thread (`implicit/cpu/_als.pyx:173-175`). -/
structure CgBufs (R : Type) where
  p : Buf R
  r : Buf R
  ap : Buf R

/-- `malloc` (`implicit/cpu/_als.pyx:173-175`). -/
def CgBufs.new (N : Nat) : CgBufs R := ⟨List.replicate N none, List.replicate N none, List.replicate N none⟩

/-- `implicit/cpu/_als.pyx:189-200`: the loop over the entries for the residual. -/
def cgResidualMem (N sy : Nat) (M : SparseArrays R) (Y X : Buf R) (ox : Nat) : List Nat → Buf R → Except Err (Buf R)
  | [], r => .ok r
  | index :: is, r => do
    let e ← csrEntry M index
    let tc := if 0 < e.2 then (e.2, e.2) else (0, -1 * e.2)
    let d ← blasDot N Y (e.1 * sy) X ox
    let temp := tc.1 - (tc.2 - 1) * d
    let r ← blasAxpy N temp Y (e.1 * sy) r 0
    cgResidualMem N sy M Y X ox is r

/-- `implicit/cpu/_als.pyx:213-221`: the loop over the entries for `Ap`. -/
def cgApplyMem (N sy : Nat) (M : SparseArrays R) (Y p : Buf R) : List Nat → Buf R → Except Err (Buf R)
  | [], ap => .ok ap
  | index :: is, ap => do
    let e ← csrEntry M index
    let c := if e.2 < 0 then -1 * e.2 else e.2
    let d ← blasDot N Y (e.1 * sy) p 0
    let temp := (c - 1) * d
    let ap ← blasAxpy N temp Y (e.1 * sy) ap 0
    cgApplyMem N sy M Y p is ap

/-- `implicit/cpu/_als.pyx:208-244`: `for it in range(cg_steps)`. -/
def cgLoopMem (tol : R) (N sy : Nat) (G : Buf R) (M : SparseArrays R) (Y : Buf R) (ox : Nat) (is : List Nat) :
    Nat → R → Buf R → CgBufs R → Except Err (Buf R × CgBufs R)
  | 0, _, X, t => .ok (X, t)
  | n + 1, rsold, X, t => do
    let ap ← blasSymv N 1 G t.p 0 t.ap
    let ap ← cgApplyMem N sy M Y t.p is ap
    let d ← blasDot N t.p 0 ap 0
    let alpha := rsold / d
    let X ← blasAxpy N alpha t.p 0 X ox
    let r ← blasAxpy N (alpha * -1) ap 0 t.r 0
    let rsnew ← blasDot N r 0 r 0
    if rsnew < tol then pure (X, ⟨t.p, r, ap⟩)
    else do
      let p ← blasScal N (rsnew / rsold) t.p 0
      let p ← blasAxpy N 1 r 0 p 0
      cgLoopMem tol N sy G M Y ox is n rsnew X ⟨p, r, ap⟩

/-- `implicit/cpu/_als.pyx:177-244`: the body of the loop over the rows, for the row from `indptr[u] = a` to `indptr[u + 1] = b`. -/
def cgRowMem' (tol : R) (steps N sx sy : Nat) (G : Buf R) (M : SparseArrays R) (Y : Buf R) (u a b : Nat) (X : Buf R) (t : CgBufs R) :
    Except Err (Buf R × CgBufs R) :=
  if a = b then do
    let X ← memZero N X (u * sx)
    pure (X, t)
  else do
    let is := List.range' a (b - a)
    let r ← blasSymv N (-1) G X (u * sx) t.r
    let r ← cgResidualMem N sy M Y X (u * sx) is r
    let p ← memCopy N r 0 t.p 0
    let rsold ← blasDot N r 0 r 0
    if rsold < tol then pure (X, ⟨p, r, t.ap⟩)
    else cgLoopMem tol N sy G M Y (u * sx) is steps rsold X ⟨p, r, t.ap⟩

/-- `implicit/cpu/_als.pyx:177-244`: one row. -/
def cgRowMem (tol : R) (steps N sx sy : Nat) (G : Buf R) (M : SparseArrays R) (Y : Buf R) (u : Nat) (X : Buf R) (t : CgBufs R) :
    Except Err (Buf R × CgBufs R) :=
  match M.indptr[u]?, M.indptr[u + 1]? with
  | some a, some b => cgRowMem' tol steps N sx sy G M Y u a b X t
  | _, _ => .error .undefinedBehaviour

/-- The parallel loop (`implicit/cpu/_als.pyx:171-248`): `order` says which thread does which row, in the order of their execution. -/
def cgLoopRows (tol : R) (steps N sx sy : Nat) (G : Buf R) (M : SparseArrays R) (Y : Buf R) :
    List (Nat × Nat) → Buf R → (Nat → CgBufs R) → Except Err (Buf R × (Nat → CgBufs R))
  | [], X, bufs => .ok (X, bufs)
  | (th, u) :: order, X, bufs => do
    let s ← cgRowMem tol steps N sx sy G M Y u X (bufs th)
    cgLoopRows tol steps N sx sy G M Y order s.1 (Function.update bufs th s.2)

/-! ## Cholesky -/

/-- The buffers of one thread (`implicit/cpu/_als.pyx:93-94`). -/
structure LsBufs (R : Type) where
  A : Buf R
  b : Buf R

/-- `malloc` (`implicit/cpu/_als.pyx:93-94`). -/
def LsBufs.new (N : Nat) : LsBufs R := ⟨List.replicate (N * N) none, List.replicate N none⟩

/-- `implicit/cpu/_als.pyx:122-124`: `for j in range(factors)`; `y` is the address of the row of `Y`. -/
def lsOuterMem (N cy : Nat) (c : R) (Y : Buf R) (y : Nat) : List Nat → Buf R → Except Err (Buf R)
  | [], A => .ok A
  | j :: js, A => do
    let yj ← bufRead Y (y + j * cy) 1
    let temp := (c - 1) * yj.headD 0
    let A ← blasAxpy N temp Y y A (j * N)
    lsOuterMem N cy c Y y js A

/-- `implicit/cpu/_als.pyx:109-124`: the loop over the entries. -/
def lsBuildMem (N sy cy : Nat) (M : SparseArrays R) (Y : Buf R) : List Nat → LsBufs R → Except Err (LsBufs R)
  | [], t => .ok t
  | index :: is, t => do
    let e ← csrEntry M index
    if 0 < e.2 then do
      let b ← blasAxpy N e.2 Y (e.1 * sy) t.b 0
      let A ← lsOuterMem N cy e.2 Y (e.1 * sy) (List.range N) t.A
      lsBuildMem N sy cy M Y is ⟨A, b⟩
    else do
      let A ← lsOuterMem N cy (-1 * e.2) Y (e.1 * sy) (List.range N) t.A
      lsBuildMem N sy cy M Y is ⟨A, t.b⟩

/-- `implicit/cpu/_als.pyx:96-138`: the body of the loop over the rows.  `G` is `initialA`, `zero` is `initialB`. -/
def lsRowMem' (N sx sy cy : Nat) (S : Solver N R) (junk : List R → List R) (G zero : Buf R) (M : SparseArrays R) (Y : Buf R) (u a b : Nat)
    (X : Buf R) (t : LsBufs R) : Except Err (Buf R × LsBufs R) :=
  if a = b then do
    let X ← memZero N X (u * sx)
    pure (X, t)
  else do
    let A ← memCopy (N * N) G 0 t.A 0
    let b' ← memCopy N zero 0 t.b 0
    let t ← lsBuildMem N sy cy M Y (List.range' a (b - a)) ⟨A, b'⟩
    let s ← lapackPosv N S junk t.A t.b
    if s.2.2 then do
      let X ← memCopy N s.2.1 0 X (u * sx)
      pure (X, ⟨s.1, s.2.1⟩)
    else .error .valueError

/-- `implicit/cpu/_als.pyx:96-138`: one row. -/
def lsRowMem (N sx sy cy : Nat) (S : Solver N R) (junk : List R → List R) (G zero : Buf R) (M : SparseArrays R) (Y : Buf R) (u : Nat)
    (X : Buf R) (t : LsBufs R) : Except Err (Buf R × LsBufs R) :=
  match M.indptr[u]?, M.indptr[u + 1]? with
  | some a, some b => lsRowMem' N sx sy cy S junk G zero M Y u a b X t
  | _, _ => .error .undefinedBehaviour

/-- The parallel loop (`implicit/cpu/_als.pyx:91-142`); an exception ends it. -/
def lsLoopRows (N sx sy cy : Nat) (S : Solver N R) (junk : List R → List R) (G zero : Buf R) (M : SparseArrays R) (Y : Buf R) :
    List (Nat × Nat) → Buf R → (Nat → LsBufs R) → Except Err (Buf R × (Nat → LsBufs R))
  | [], X, bufs => .ok (X, bufs)
  | (th, u) :: order, X, bufs => do
    let s ← lsRowMem N sx sy cy S junk G zero M Y u X (bufs th)
    lsLoopRows N sx sy cy S junk G zero M Y order s.1 (Function.update bufs th s.2)

/-! ## Loss -/

/-- The buffer of one thread and its parts of the reductions (`implicit/cpu/_als.pyx:272-275`). -/
structure LossBufs (R : Type) where
  r : Buf R
  loss : R
  totalConfidence : R
  userNorm : R
  itemNorm : R

/-- `malloc`, and the private copies of the sums start with 0 (`implicit/cpu/_als.pyx:270-274`). -/
def LossBufs.new (N : Nat) : LossBufs R := ⟨List.replicate N none, 0, 0, 0, 0⟩

/-- `implicit/cpu/_als.pyx:282-296`: the loop over the entries. -/
def lossEntriesMem (N sy : Nat) (M : SparseArrays R) (Y X : Buf R) (ox : Nat) : List Nat → LossBufs R → Except Err (LossBufs R)
  | [], t => .ok t
  | index :: is, t => do
    let e ← csrEntry M index
    let tc := if 0 < e.2 then (-2 * e.2, e.2) else (0, -1 * e.2)
    let d ← blasDot N Y (e.1 * sy) X ox
    let temp := tc.1 + (tc.2 - 1) * d
    let r ← blasAxpy N temp Y (e.1 * sy) t.r 0
    lossEntriesMem N sy M Y X ox is { t with r := r, totalConfidence := t.totalConfidence + tc.2, loss := t.loss + tc.2 }

/-- `implicit/cpu/_als.pyx:277-299`: one row. -/
def lossRowMem' (N sx sy : Nat) (G : Buf R) (M : SparseArrays R) (Y X : Buf R) (u a b : Nat) (t : LossBufs R) :
    Except Err (LossBufs R) := do
  let r ← blasSymv N 1 G X (u * sx) t.r
  let t ← lossEntriesMem N sy M Y X (u * sx) (List.range' a (b - a)) { t with r := r }
  let d ← blasDot N t.r 0 X (u * sx)
  let n ← blasDot N X (u * sx) X (u * sx)
  pure { t with loss := t.loss + d, userNorm := t.userNorm + n }

/-- `implicit/cpu/_als.pyx:277-299`: one row. -/
def lossRowMem (N sx sy : Nat) (G : Buf R) (M : SparseArrays R) (Y X : Buf R) (u : Nat) (t : LossBufs R) : Except Err (LossBufs R) :=
  match M.indptr[u]?, M.indptr[u + 1]? with
  | some a, some b => lossRowMem' N sx sy G M Y X u a b t
  | _, _ => .error .undefinedBehaviour

/-- The first parallel loop of `_calculate_loss` (`implicit/cpu/_als.pyx:277-299`). -/
def lossLoopRows (N sx sy : Nat) (G : Buf R) (M : SparseArrays R) (Y X : Buf R) :
    List (Nat × Nat) → (Nat → LossBufs R) → Except Err (Nat → LossBufs R)
  | [], bufs => .ok bufs
  | (th, u) :: order, bufs => do
    let t ← lossRowMem N sx sy G M Y X u (bufs th)
    lossLoopRows N sx sy G M Y X order (Function.update bufs th t)

/-- The second parallel loop (`implicit/cpu/_als.pyx:301-302`). -/
def lossLoopItems (N sy : Nat) (Y : Buf R) : List (Nat × Nat) → (Nat → LossBufs R) → Except Err (Nat → LossBufs R)
  | [], bufs => .ok bufs
  | (th, i) :: order, bufs => do
    let n ← blasDot N Y (i * sy) Y (i * sy)
    lossLoopItems N sy Y order (Function.update bufs th { bufs th with itemNorm := (bufs th).itemNorm + n })

/-- `implicit/cpu/_als.pyx:258-308`, `_calculate_loss` with `threads` threads: the sums of the threads are added. -/
def lossMem (N sx sy : Nat) (G : Buf R) (M : SparseArrays R) (Y X : Buf R) (reg : R) (threads : Nat) (users items : List (Nat × Nat)) :
    Except Err R := do
  let bufs ← lossLoopRows N sx sy G M Y X users fun _ => LossBufs.new N
  let bufs ← lossLoopItems N sy Y items bufs
  let total (g : LossBufs R → R) := ((List.range threads).map fun th => g (bufs th)).sum
  let loss := total LossBufs.loss + reg * (total LossBufs.itemNorm + total LossBufs.userNorm)
  pure (loss / (total LossBufs.totalConfidence + ((M.rows * M.cols : Nat) : R) - (M.indices.length : R)))

end Implicit
