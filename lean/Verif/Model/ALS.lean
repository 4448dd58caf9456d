import Verif.Model.MFBase
/-!
# Alternating least squares on the CPU: `implicit/cpu/als.py`, `implicit/cpu/_als.pyx`

Exact arithmetic.  `float32` conversions (`data.astype("float32")`) are the identity here.
-/

namespace Implicit

variable {R : Type} [LinearOrder R] [Field R] {f : Nat}

/-- A square matrix with `f` rows. -/
abbrev Mat (f : Nat) (R : Type) := Fin f → Fin f → R

/-- Matrix times vector (BLAS `symv`, `numpy.dot`). -/
def mulVec (A : Mat f R) (x : Vec f R) : Vec f R := fun a => dot (A a) x

/-- `Y.T.dot(Y)` (`implicit/cpu/als.py:428`, `implicit/cpu/_als.pyx:70,164,268`). -/
def gram (Y : List (Vec f R)) : Mat f R := fun a b => (Y.map fun y => y a * y b).sum

/-- `YtY + regularization * np.eye(factors)` (`implicit/cpu/_als.pyx:85,164`,
`implicit/cpu/als.py:498,529`). -/
def regularised (G : Mat f R) (reg : R) : Mat f R :=
  fun a b => G a b + reg * (if a = b then 1 else 0)

/-- The stored entries of a row with the factors they refer to.  `err` is what an index beyond the
factor matrix causes: `IndexError` in python, undefined behaviour in native code
(`boundscheck(False)`). -/
def rowEntries (err : Err) (Y : List (Vec f R)) : List (Nat × R) → Except Err (List (Vec f R × R))
  | [] => .ok []
  | (i, c) :: row =>
    match Y[i]? with
    | none => .error err
    | some y => do pure ((y, c) :: (← rowEntries err Y row))

/-- One round of the accumulation loop: `b += c y` if the confidence is positive, otherwise the
confidence is negated; then `A += (c - 1) y y^T` (`implicit/cpu/_als.pyx:109-124`,
`implicit/cpu/als.py:503-511`). -/
def accumulate (s : Mat f R × Vec f R) (e : Vec f R × R) : Mat f R × Vec f R :=
  if 0 < e.2 then
    (fun a b => s.1 a b + (e.2 - 1) * e.1 a * e.1 b, fun a => s.2 a + e.2 * e.1 a)
  else
    (fun a b => s.1 a b + (-e.2 - 1) * e.1 a * e.1 b, s.2)

/-- `implicit/cpu/als.py:493-512`, `user_linear_equation`, and the same loop in
`implicit/cpu/_als.pyx:105-124`. -/
def linearEquation (G : Mat f R) (reg : R) (es : List (Vec f R × R)) : Mat f R × Vec f R :=
  es.foldl accumulate (regularised G reg, fun _ => 0)

/-- Symmetric and positive definite. -/
structure PosDef (A : Mat f R) : Prop where
  symm : ∀ a b, A a b = A b a
  pos : ∀ x : Vec f R, x ≠ 0 → 0 < dot x (mulVec A x)

/-- LAPACK `posv` (`implicit/cpu/_als.pyx:127`), `np.linalg.solve` (`implicit/cpu/als.py:518`): an
external routine, known only to return the solution of positive definite systems.  `none` is a
reported error. -/
structure Solver (f : Nat) (R : Type) [LinearOrder R] [Field R] where
  solve : Mat f R → Vec f R → Option (Vec f R)
  spec : ∀ A b, PosDef A → ∃ x, solve A b = some x ∧ mulVec A x = b

/-- `implicit/cpu/_als.pyx:96-138`, one iteration of the loop of `_least_squares`. -/
def leastSquaresRow (S : Solver f R) (G : Mat f R) (Y : List (Vec f R)) (reg : R)
    (row : List (Nat × R)) : Except Err (Vec f R) :=
  if row.isEmpty then .ok (fun _ => 0)
  else do
    let es ← rowEntries .undefinedBehaviour Y row
    let Ab := linearEquation G reg es
    match S.solve Ab.1 Ab.2 with
    | some x => pure x
    | none => throw .valueError

/-- `implicit/cpu/_als.pyx:75-142`, `_least_squares`: the loop runs over the rows of `X`
(`users = X.shape[0]`), reading `indptr[u]`, `indptr[u+1]` unchecked.  The result is the new content
of `X`; the rows are independent (see C15 for the parallel loop). -/
def leastSquaresNative (S : Solver f R) (G : Mat f R) (C : SpRows R) (users : Nat)
    (Y : List (Vec f R)) (reg : R) : Except Err (List (Vec f R)) :=
  (List.range users).mapM fun u =>
    match C[u]? with
    | none => .error .undefinedBehaviour
    | some row => leastSquaresRow S G Y reg row

/-- `implicit/cpu/_als.pyx:67-72`, `least_squares`. -/
def leastSquares (S : Solver f R) (C : SpRows R) (X Y : List (Vec f R)) (reg : R) :
    Except Err (List (Vec f R)) :=
  leastSquaresNative S (gram Y) C X.length Y reg

/-- `implicit/cpu/als.py:515-518`, `user_factor` (no special case for empty rows). -/
def leastSquaresPyRow (S : Solver f R) (G : Mat f R) (Y : List (Vec f R)) (reg : R)
    (row : List (Nat × R)) : Except Err (Vec f R) := do
  let es ← rowEntries .indexError Y row
  let Ab := linearEquation G reg es
  match S.solve Ab.1 Ab.2 with
  | some x => pure x
  | none => throw .valueError

/-- `implicit/cpu/als.py:479-490`, the python `least_squares`. -/
def leastSquaresPy (S : Solver f R) (C : SpRows R) (X Y : List (Vec f R)) (reg : R) :
    Except Err (List (Vec f R)) :=
  (List.range X.length).mapM fun u =>
    match C[u]? with
    | none => .error .indexError
    | some row => leastSquaresPyRow S (gram Y) Y reg row

/-! ## Conjugate gradient -/

/-- `r + t y` (BLAS `axpy`). -/
def axpy (t : R) (y r : Vec f R) : Vec f R := fun a => r a + t * y a

/-- `implicit/cpu/_als.pyx:186-201` / `implicit/cpu/als.py:535-542`: the initial residual. -/
def cgResidual (G : Mat f R) (es : List (Vec f R × R)) (x : Vec f R) : Vec f R :=
  es.foldl (fun r e =>
      if 0 < e.2 then axpy (e.2 - (e.2 - 1) * dot e.1 x) e.1 r
      else axpy (0 - (-e.2 - 1) * dot e.1 x) e.1 r)
    (fun a => -1 * mulVec G x a)

/-- `implicit/cpu/_als.pyx:210-222` / `implicit/cpu/als.py:551-556`: `Ap` without building `A`. -/
def cgApply (G : Mat f R) (es : List (Vec f R × R)) (p : Vec f R) : Vec f R :=
  es.foldl (fun v e =>
      axpy (((if e.2 < 0 then -e.2 else e.2) - 1) * dot e.1 p) e.1 v)
    (mulVec G p)

/-- State of the CG loop. -/
structure CG (f : Nat) (R : Type) where
  x : Vec f R
  r : Vec f R
  p : Vec f R
  rsold : R

/-- One CG round (`implicit/cpu/_als.pyx:210-244`, `implicit/cpu/als.py:550-566`), before the test for
stopping: the new `x`, `r` and `rsnew`, and the next direction. -/
def cgStep (apply : Vec f R → Vec f R) (s : CG f R) : CG f R :=
  let Ap := apply s.p
  let alpha := s.rsold / dot s.p Ap
  let x := axpy alpha s.p s.x
  let r := axpy (alpha * -1) Ap s.r
  let rsnew := dot r r
  ⟨x, r, axpy 1 r (fun a => rsnew / s.rsold * s.p a), rsnew⟩

/-- The CG loop: at most `n` rounds, stopping early when `rsnew < tol` (`1e-20` in the code). -/
def cgLoop (apply : Vec f R → Vec f R) (tol : R) : Nat → CG f R → Vec f R
  | 0, s => s.x
  | n + 1, s =>
    let s' := cgStep apply s
    if s'.rsold < tol then s'.x else cgLoop apply tol n s'

/-- CG for one row after the empty-row test (`implicit/cpu/_als.pyx:186-244`,
`implicit/cpu/als.py:532-568`).  `G` is `YtY + regularization * I`. -/
def cgSolve (G : Mat f R) (tol : R) (steps : Nat) (es : List (Vec f R × R)) (x : Vec f R) :
    Vec f R :=
  let r := cgResidual G es x
  let rsold := dot r r
  if rsold < tol then x else cgLoop (cgApply G es) tol steps ⟨x, r, r, rsold⟩

/-- One row of the native `_least_squares_cg` (`implicit/cpu/_als.pyx:177-244`). -/
def cgRow (G : Mat f R) (tol : R) (steps : Nat) (Y : List (Vec f R)) (row : List (Nat × R))
    (x : Vec f R) : Except Err (Vec f R) :=
  if row.isEmpty then .ok (fun _ => 0)
  else do
    let es ← rowEntries .undefinedBehaviour Y row
    pure (cgSolve G tol steps es x)

/-- `implicit/cpu/_als.pyx:145-248`, native `least_squares_cg`. -/
def leastSquaresCG (tol : R) (steps : Nat) (C : SpRows R) (X Y : List (Vec f R)) (reg : R) :
    Except Err (List (Vec f R)) :=
  X.zipIdx.mapM fun xu =>
    match C[xu.2]? with
    | none => .error .undefinedBehaviour
    | some row => cgRow (regularised (gram Y) reg) tol steps Y row xu.1

/-- `implicit/cpu/als.py:527-568`, python `least_squares_cg` (no special case for empty rows). -/
def leastSquaresCGPy (tol : R) (steps : Nat) (C : SpRows R) (X Y : List (Vec f R)) (reg : R) :
    Except Err (List (Vec f R)) :=
  X.zipIdx.mapM fun xu =>
    match C[xu.2]? with
    | none => .error .indexError
    | some row => do
      let es ← rowEntries .indexError Y row
      pure (cgSolve (regularised (gram Y) reg) tol steps es xu.1)

/-! ## Loss -/

/-- Accumulators of `_calculate_loss` inside one row: the vector `r`, `total_confidence`, `loss`
(`implicit/cpu/_als.pyx:282-296`). -/
def lossStep (x : Vec f R) (s : Vec f R × R × R) (e : Vec f R × R) : Vec f R × R × R :=
  if 0 < e.2 then
    (axpy (-2 * e.2 + (e.2 - 1) * dot e.1 x) e.1 s.1, s.2.1 + e.2, s.2.2 + e.2)
  else
    (axpy (0 + (-e.2 - 1) * dot e.1 x) e.1 s.1, s.2.1 + -e.2, s.2.2 + -e.2)

/-- `implicit/cpu/_als.pyx:277-299`: contribution of one row: `(total_confidence, loss)`. -/
def lossRow (G : Mat f R) (es : List (Vec f R × R)) (x : Vec f R) : R × R :=
  let s := es.foldl (lossStep x) (mulVec G x, 0, 0)
  (s.2.1, s.2.2 + dot s.1 x)

/-- The loop body of `_calculate_loss` for user `u` with factor `x` (`implicit/cpu/_als.pyx:277-299`). -/
def lossPart (C : SpRows R) (Y : List (Vec f R)) (xu : Vec f R × Nat) : Except Err (R × R) :=
  match C[xu.2]? with
  | none => .error .undefinedBehaviour
  | some row => do
    let es ← rowEntries .undefinedBehaviour Y row
    pure (lossRow (gram Y) es xu.1)

/-- `implicit/cpu/_als.pyx:251-308`, `_calculate_loss`; the sparse matrix has `C.length` rows and
`cols` columns. -/
def calculateLoss (C : SpRows R) (cols : Nat) (X Y : List (Vec f R)) (reg : R) : Except Err R := do
  let parts ← X.zipIdx.mapM (lossPart C Y)
  let totalConfidence := (parts.map Prod.fst).sum
  let loss := (parts.map Prod.snd).sum
  let userNorm := (X.map fun x => dot x x).sum
  let itemNorm := (Y.map fun y => dot y y).sum
  let nnz := (C.map List.length).sum
  pure ((loss + reg * (itemNorm + userNorm)) /
    (totalConfidence + ((C.length * cols : Nat) : R) - (nnz : R)))

/-! ## Training -/

/-- `Cui.T.tocsr()` for a matrix with `cols` columns (`implicit/cpu/als.py:136`): row `i` lists the
users having a stored value in column `i`. -/
def transposeRows (cols : Nat) (C : SpRows R) : SpRows R :=
  (List.range cols).map fun i =>
    C.zipIdx.flatMap fun ru => (ru.1.filter fun e => e.1 == i).map fun e => (ru.2, e.2)

/-- One of the solvers used by `fit`: data, old factors, fixed factors, regularisation. -/
abbrev SweepFn (f : Nat) (R : Type) :=
  SpRows R → List (Vec f R) → List (Vec f R) → R → Except Err (List (Vec f R))

/-- One iteration of `fit` (`implicit/cpu/als.py:163-176`): new user factors from the item factors,
then new item factors from the new user factors. -/
def alsIteration (solver : SweepFn f R) (Cui Ciu : SpRows R) (reg : R) (m : Factors f R) :
    Except Err (Factors f R) := do
  let X ← solver Cui m.user m.item reg
  let Y ← solver Ciu m.item X reg
  pure ⟨X, Y⟩

/-- The iterations of `fit` (`implicit/cpu/als.py:161-196`): the factors after each iteration, as seen
by the callback. -/
def alsTrace (solver : SweepFn f R) (Cui Ciu : SpRows R) (reg : R) :
    Nat → Factors f R → Except Err (List (Factors f R))
  | 0, _ => .ok []
  | n + 1, m => do
    let m' ← alsIteration solver Cui Ciu reg m
    pure (m' :: (← alsTrace solver Cui Ciu reg n m'))

/-- Constructor parameters of `AlternatingLeastSquares` that matter for training
(`implicit/cpu/als.py:60-88`). -/
structure ALSParams (R : Type) where
  regularization : R
  alpha : R
  useNative : Bool
  useCg : Bool
  cgSteps : Nat
  iterations : Nat

/-- `implicit/cpu/als.py:417-422`, the `solver` property.  `tol` is `1e-20`. -/
def alsSolver (S : Solver f R) (tol : R) (p : ALSParams R) : SweepFn f R :=
  if p.useCg then
    if p.useNative then leastSquaresCG tol p.cgSteps else leastSquaresCGPy tol p.cgSteps
  else if p.useNative then leastSquares S else leastSquaresPy S

/-- `self.alpha * Cui` (`implicit/cpu/als.py:133`). -/
def scaleRows (alpha : R) (C : SpRows R) : SpRows R := C.map fun row => row.map fun e => (e.1, alpha * e.2)

/-- `if self.alpha != 1.0: Cui = self.alpha * Cui` (`implicit/cpu/als.py:132-133,226-227,258-259`). -/
def applyAlpha (alpha : R) (C : SpRows R) : SpRows R := if alpha ≠ 1 then scaleRows alpha C else C

/-- `implicit/cpu/als.py:97-201`, `fit`, without the callbacks, caches and the NaN check (see
`Verif.Model.ALSState`): `init` are the stored factors or the freshly drawn ones (143-146); the result is
the trained factors. -/
def alsFit (S : Solver f R) (tol : R) (p : ALSParams R) (cols : Nat) (userItems : SpRows R)
    (init : Factors f R) : Except Err (Factors f R) := do
  let Cui := applyAlpha p.alpha userItems
  let Ciu := transposeRows cols Cui
  let trace ← alsTrace (alsSolver S tol p) Cui Ciu p.regularization p.iterations init
  pure (trace.getLast?.getD init)

end Implicit
