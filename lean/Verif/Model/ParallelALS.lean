import Verif.Model.ALS
import Verif.Model.Parallel
/-!
# The parallel row loops of `implicit/cpu/_als.pyx` as instruction streams

The shared memory is the factor matrix `X` being computed: address `(u, j)` is `X[u, j]`.  The other
factor matrix `Y`, the sparse data and `YtY` are read only, so they appear as constants in the
instructions.  Writes to `X` are one instruction per coordinate; operations on thread-private buffers
are one instruction per BLAS call or loop round (no other thread can see them).
-/

namespace Implicit

variable {R : Type} [LinearOrder R] [Field R] {f : Nat}

/-! ## `_least_squares` (`implicit/cpu/_als.pyx:92-142`) -/

/-- The thread-private buffers `A`, `b` and `err` (`implicit/cpu/_als.pyx:92-95,125`).  Never
initialised: any content is possible when the thread starts. -/
structure LSScratch (f : Nat) (R : Type) where
  A : Mat f R
  b : Vec f R
  err : Bool

inductive LSInstr (f : Nat) (R : Type) where
  /-- one coordinate of `memset(&X[u, 0], 0, ...)` (`:99`) -/
  | zero (u : Nat) (j : Fin f)
  /-- `memcpy(A, initialA)` (`:106`) -/
  | initA
  /-- `memcpy(b, initialB)` (`:107`) -/
  | initB
  /-- one round of the loop over the stored entries (`:109-124`) -/
  | entry (e : Vec f R × R)
  /-- `err = 0; posv(...)` (`:126-127`); `A` is left holding the factorisation, here unspecified
  but equal to `A` -/
  | posv
  /-- one coordinate of `memcpy(&X[u, 0], b, ...)`, guarded by `if not err` (`:129-130`) -/
  | store (u : Nat) (j : Fin f)

/-- Effect of the instructions. -/
def lsAct (S : Solver f R) (G : Mat f R) (reg : R) :
    Act (LSInstr f R) (LSScratch f R) (Nat × Fin f) R
  | .zero u j, s, m => (s, Function.update m (u, j) 0)
  | .initA, s, m => ({ s with A := regularised G reg }, m)
  | .initB, s, m => ({ s with b := fun _ => 0 }, m)
  | .entry e, s, m =>
    ({ s with A := (accumulate (s.A, s.b) e).1, b := (accumulate (s.A, s.b) e).2 }, m)
  | .posv, s, m =>
    (match S.solve s.A s.b with
      | some x => { s with b := x, err := false }
      | none => { s with err := true }, m)
  | .store u j, s, m => (s, if s.err then m else Function.update m (u, j) (s.b j))

/-- The iteration for row `u` with stored entries `es` (`implicit/cpu/_als.pyx:97-138`). -/
def lsProg (es : List (Vec f R × R)) (u : Nat) : List (LSInstr f R) :=
  if es.isEmpty then (List.finRange f).map (.zero u)
  else [.initA, .initB] ++ es.map .entry ++ [.posv] ++ (List.finRange f).map (.store u)

/-! ## `_least_squares_cg` (`implicit/cpu/_als.pyx:171-248`) -/

/-- The thread-private buffers and variables; `stop` is set by `continue` (`:207`) and `break`
(`:234`). -/
structure CGScratch (f : Nat) (R : Type) where
  r : Vec f R
  p : Vec f R
  Ap : Vec f R
  rsold : R
  alpha : R
  stop : Bool

inductive CGInstr (f : Nat) (R : Type) where
  /-- one coordinate of `memset(x, 0, ...)` (`:182`) -/
  | zero (u : Nat) (j : Fin f)
  /-- `symv`: `r = -YtY x` (`:187`) -/
  | resid (u : Nat)
  /-- one round of the residual loop (`:189-201`) -/
  | residEntry (u : Nat) (e : Vec f R × R)
  /-- `p = r`, `rsold = r.r`, `continue` if small (`:203-207`) -/
  | start
  /-- `symv`: `Ap = YtY p` (`:212`) -/
  | ap
  /-- one round of the loop completing `Ap` (`:214-222`) -/
  | apEntry (e : Vec f R × R)
  /-- `alpha = rsold / p.dot(Ap)` (`:225`) -/
  | alpha
  /-- one coordinate of `x += alpha * p` (`:228`) -/
  | storeX (u : Nat) (j : Fin f)
  /-- `r -= alpha Ap`, the test for stopping, the new direction (`:231-243`) -/
  | update

/-- Effect of the instructions; those after a `continue`/`break` do nothing. -/
def cgAct (G : Mat f R) (tol : R) : Act (CGInstr f R) (CGScratch f R) (Nat × Fin f) R
  | .zero u j, s, m => (s, Function.update m (u, j) 0)
  | .resid u, s, m =>
    ({ s with r := fun a => -1 * mulVec G (fun j => m (u, j)) a, stop := false }, m)
  | .residEntry u e, s, m =>
    let x : Vec f R := fun j => m (u, j)
    let t := if 0 < e.2 then e.2 - (e.2 - 1) * dot e.1 x else 0 - (-e.2 - 1) * dot e.1 x
    ({ s with r := axpy t e.1 s.r }, m)
  | .start, s, m =>
    ({ s with p := s.r, rsold := dot s.r s.r, stop := decide (dot s.r s.r < tol) }, m)
  | .ap, s, m => (if s.stop then s else { s with Ap := mulVec G s.p }, m)
  | .apEntry e, s, m =>
    let c := (if e.2 < 0 then -e.2 else e.2) - 1
    (if s.stop then s else { s with Ap := axpy (c * dot e.1 s.p) e.1 s.Ap }, m)
  | .alpha, s, m => (if s.stop then s else { s with alpha := s.rsold / dot s.p s.Ap }, m)
  | .storeX u j, s, m =>
    (s, if s.stop then m else Function.update m (u, j) (m (u, j) + s.alpha * s.p j))
  | .update, s, m =>
    (if s.stop then s
      else
        let r := axpy (s.alpha * -1) s.Ap s.r
        let rsnew := dot r r
        if rsnew < tol then { s with r := r, stop := true }
        else { s with r := r, p := axpy 1 r (fun a => rsnew / s.rsold * s.p a), rsold := rsnew }, m)

/-- One CG round (`implicit/cpu/_als.pyx:209-243`). -/
def cgRound (es : List (Vec f R × R)) (u : Nat) : List (CGInstr f R) :=
  [.ap] ++ es.map .apEntry ++ [.alpha] ++ (List.finRange f).map (.storeX u) ++ [.update]

/-- The iteration for row `u` (`implicit/cpu/_als.pyx:176-243`). -/
def cgProg (steps : Nat) (es : List (Vec f R × R)) (u : Nat) : List (CGInstr f R) :=
  if es.isEmpty then (List.finRange f).map (.zero u)
  else [.resid u] ++ es.map (.residEntry u) ++ [.start] ++
    (List.replicate steps (cgRound es u)).flatten

/-- The stored entries of row `u` with their factors; rows that do not exist or refer to factors that
do not exist (undefined behaviour in the code, see C49) give no entries. -/
def taskEntries (C : SpRows R) (Y : List (Vec f R)) (u : Nat) : List (Vec f R × R) :=
  match C[u]? with
  | none => []
  | some row =>
    match rowEntries .undefinedBehaviour Y row with
    | .ok es => es
    | .error _ => []

end Implicit
