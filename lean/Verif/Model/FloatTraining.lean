import Verif.Model.BPR
import Verif.Model.FitCheck
import Verif.Model.GpuALS
import Verif.Model.LMF
/-!
# Training with the numbers of the machine, among them NaN

The training code once more, over the operations of an arbitrary number type `V` instead of a field: `FloatOps`.  What is known
of the operations is in `FloatOps.Strict`; with the operations of a field the code is that of the other files
(`Verif.Lemmas.FloatTraining`).  Sums are taken from left to right; BLAS may take them in another order.
-/

namespace Implicit

/-- Operations on floating point numbers.  `axpy t y r` is `r + t * y` as BLAS `axpy` computes it for one component; the
reference implementation returns at once if `t` is zero. -/
structure FloatOps (V : Type) where
  zero : V
  one : V
  add : V → V → V
  sub : V → V → V
  mul : V → V → V
  div : V → V → V
  lt : V → V → Bool
  axpy : V → V → V → V
  isNaN : V → Bool

/-- The rules of IEEE 754 for NaN: an operation on NaN gives NaN (6.2), a comparison with NaN is false (5.11). -/
structure FloatOps.Strict {V : Type} (A : FloatOps V) : Prop where
  zero : A.isNaN A.zero = false
  one : A.isNaN A.one = false
  add : ∀ a b, A.isNaN a = true ∨ A.isNaN b = true → A.isNaN (A.add a b) = true
  sub : ∀ a b, A.isNaN a = true ∨ A.isNaN b = true → A.isNaN (A.sub a b) = true
  mul : ∀ a b, A.isNaN a = true ∨ A.isNaN b = true → A.isNaN (A.mul a b) = true
  div : ∀ a b, A.isNaN a = true ∨ A.isNaN b = true → A.isNaN (A.div a b) = true
  lt : ∀ a b, A.isNaN a = true ∨ A.isNaN b = true → A.lt a b = false
  axpy : ∀ t y r, A.isNaN t = true ∨ A.isNaN r = true → A.isNaN (A.axpy t y r) = true

/-- The operations of a field: no NaN. -/
def exactOps (R : Type) [LinearOrder R] [Field R] : FloatOps R :=
  ⟨0, 1, (· + ·), (· - ·), (· * ·), (· / ·), fun a b => decide (a < b), fun t y r => r + t * y, fun _ => false⟩

/-- A field with a NaN, `none`; a division by zero gives NaN (there is no infinity). -/
def nanOps (R : Type) [LinearOrder R] [Field R] : FloatOps (Option R) where
  zero := some 0
  one := some 1
  add a b := do pure ((← a) + (← b))
  sub a b := do pure ((← a) - (← b))
  mul a b := do pure ((← a) * (← b))
  div a b := do
    let a ← a
    let b ← b
    if b = 0 then none else pure (a / b)
  lt a b := match a, b with
    | some a, some b => decide (a < b)
    | _, _ => false
  axpy t y r := match t, y, r with
    | some t, some y, some r => some (r + t * y)
    -- `axpy` with coefficient zero
    | some t, none, some r => if t = 0 then some r else none
    | _, _, _ => none
  isNaN a := a.isNone

variable {V : Type} {f : Nat}

namespace FloatOps

variable (A : FloatOps V)

/-- `-1.0`. -/
def negOne : V := A.sub A.zero A.one

/-- Inner product. -/
def dot (x y : Vec f V) : V := (List.finRange f).foldl (fun s j => A.add s (A.mul (x j) (y j))) A.zero

/-- Matrix times vector. -/
def mulVec (G : Mat f V) (x : Vec f V) : Vec f V := fun a => A.dot (G a) x

/-- `Y.T.dot(Y)` (`implicit/cpu/_als.pyx:70,164`, `implicit/cpu/als.py:487,529`). -/
def gram (Y : List (Vec f V)) : Mat f V := fun a b => Y.foldl (fun s y => A.add s (A.mul (y a) (y b))) A.zero

/-- `YtY + regularization * np.eye(factors)`. -/
def regularised (G : Mat f V) (reg : V) : Mat f V :=
  fun a b => A.add (G a b) (A.mul reg (if a = b then A.one else A.zero))

/-- `axpy` on vectors. -/
def axpyVec (t : V) (y r : Vec f V) : Vec f V := fun a => A.axpy t (y a) (r a)

/-- The initial residual (`implicit/cpu/_als.pyx:186-201`). -/
def cgResidual (G : Mat f V) (es : List (Vec f V × V)) (x : Vec f V) : Vec f V :=
  es.foldl (fun r e =>
      if A.lt A.zero e.2 then A.axpyVec (A.sub e.2 (A.mul (A.sub e.2 A.one) (A.dot e.1 x))) e.1 r
      else A.axpyVec (A.sub A.zero (A.mul (A.sub (A.mul A.negOne e.2) A.one) (A.dot e.1 x))) e.1 r)
    (fun a => A.mul A.negOne (A.mulVec G x a))

/-- `Ap` (`implicit/cpu/_als.pyx:210-222`). -/
def cgApply (G : Mat f V) (es : List (Vec f V × V)) (p : Vec f V) : Vec f V :=
  es.foldl (fun v e =>
      A.axpyVec (A.mul (A.sub (if A.lt e.2 A.zero then A.mul A.negOne e.2 else e.2) A.one) (A.dot e.1 p)) e.1 v)
    (A.mulVec G p)

/-- One round (`implicit/cpu/_als.pyx:210-244`). -/
def cgStep (apply : Vec f V → Vec f V) (s : CG f V) : CG f V :=
  let Ap := apply s.p
  let alpha := A.div s.rsold (A.dot s.p Ap)
  let x := A.axpyVec alpha s.p s.x
  let r := A.axpyVec (A.mul alpha A.negOne) Ap s.r
  let rsnew := A.dot r r
  ⟨x, r, A.axpyVec A.one r (fun a => A.mul (A.div rsnew s.rsold) (s.p a)), rsnew⟩

/-- The rounds: the final `x`, and the final value of the variable `rsold` (not assigned before a `break`). -/
def cgLoop (apply : Vec f V → Vec f V) (tol : V) : Nat → CG f V → Vec f V × V
  | 0, s => (s.x, s.rsold)
  | n + 1, s =>
    let s' := A.cgStep apply s
    if A.lt s'.rsold tol then (s'.x, s.rsold) else cgLoop apply tol n s'

/-- One row (`implicit/cpu/_als.pyx:186-244`), with the final `rsold`. -/
def cgSolve (G : Mat f V) (tol : V) (steps : Nat) (es : List (Vec f V × V)) (x : Vec f V) : Vec f V × V :=
  let r := A.cgResidual G es x
  let rsold := A.dot r r
  if A.lt rsold tol then (x, rsold) else A.cgLoop (A.cgApply G es) tol steps ⟨x, r, r, rsold⟩

/-- One row of the native `_least_squares_cg` (`implicit/cpu/_als.pyx:177-244`). -/
def cgRow (G : Mat f V) (tol : V) (steps : Nat) (Y : List (Vec f V)) (row : List (Nat × V)) (x : Vec f V) :
    Except Err (Vec f V) :=
  if row.isEmpty then .ok (fun _ => A.zero)
  else do
    let es ← rowEntries .undefinedBehaviour Y row
    pure (A.cgSolve G tol steps es x).1

/-- `implicit/cpu/_als.pyx:145-248`, native `least_squares_cg`. -/
def leastSquaresCG (tol : V) (steps : Nat) (C : SpRows V) (X Y : List (Vec f V)) (reg : V) : Except Err (List (Vec f V)) :=
  X.zipIdx.mapM fun xu =>
    match C[xu.2]? with
    | none => .error .undefinedBehaviour
    | some row => A.cgRow (A.regularised (A.gram Y) reg) tol steps Y row xu.1

/-- `implicit/cpu/als.py:527-568`, python `least_squares_cg`: no special case for empty rows. -/
def leastSquaresCGPy (tol : V) (steps : Nat) (C : SpRows V) (X Y : List (Vec f V)) (reg : V) : Except Err (List (Vec f V)) :=
  X.zipIdx.mapM fun xu =>
    match C[xu.2]? with
    | none => .error .indexError
    | some row => do
      let es ← rowEntries .indexError Y row
      pure (A.cgSolve (A.regularised (A.gram Y) reg) tol steps es xu.1).1

/-- The accumulation loop of `_least_squares` (`implicit/cpu/_als.pyx:109-124`): both `b` and the rows of `A` by `axpy`. -/
def accumulate (s : Mat f V × Vec f V) (e : Vec f V × V) : Mat f V × Vec f V :=
  if A.lt A.zero e.2 then
    (fun a b => A.axpy (A.mul (A.sub e.2 A.one) (e.1 a)) (e.1 b) (s.1 a b), A.axpyVec e.2 e.1 s.2)
  else
    (fun a b => A.axpy (A.mul (A.sub (A.mul A.negOne e.2) A.one) (e.1 a)) (e.1 b) (s.1 a b), s.2)

/-- One row of `_least_squares` (`implicit/cpu/_als.pyx:96-138`); `posv` is LAPACK, `none` a reported error. -/
def leastSquaresRow (posv : Mat f V → Vec f V → Option (Vec f V)) (G : Mat f V) (Y : List (Vec f V)) (reg : V)
    (row : List (Nat × V)) : Except Err (Vec f V) :=
  if row.isEmpty then .ok (fun _ => A.zero)
  else do
    let es ← rowEntries .undefinedBehaviour Y row
    let Ab := es.foldl A.accumulate (A.regularised G reg, fun _ => A.zero)
    match posv Ab.1 Ab.2 with
    | some x => pure x
    | none => throw .valueError

/-- `implicit/cpu/_als.pyx:67-142`, native `least_squares`. -/
def leastSquares (posv : Mat f V → Vec f V → Option (Vec f V)) (C : SpRows V) (X Y : List (Vec f V)) (reg : V) :
    Except Err (List (Vec f V)) :=
  (List.range X.length).mapM fun u =>
    match C[u]? with
    | none => .error .undefinedBehaviour
    | some row => A.leastSquaresRow posv (A.gram Y) Y reg row

/-- One row of the loop of `user_linear_equation` (`implicit/cpu/als.py:502-511`): numpy arithmetic, no `axpy`. -/
def accumulatePy (s : Mat f V × Vec f V) (e : Vec f V × V) : Mat f V × Vec f V :=
  let c := if A.lt A.zero e.2 then e.2 else A.mul e.2 A.negOne
  (fun a b => A.add (s.1 a b) (A.mul (A.sub c A.one) (A.mul (e.1 a) (e.1 b))),
    if A.lt A.zero e.2 then fun a => A.add (s.2 a) (A.mul e.2 (e.1 a)) else s.2)

/-- `user_factor` (`implicit/cpu/als.py:492-518`); `solve` is `np.linalg.solve`, `none` a `LinAlgError`. -/
def leastSquaresPyRow (solve : Mat f V → Vec f V → Option (Vec f V)) (G : Mat f V) (Y : List (Vec f V)) (reg : V)
    (row : List (Nat × V)) : Except Err (Vec f V) := do
  let es ← rowEntries .indexError Y row
  let Ab := es.foldl A.accumulatePy (A.regularised G reg, fun _ => A.zero)
  match solve Ab.1 Ab.2 with
  | some x => pure x
  | none => throw .valueError

/-- The python `least_squares` (`implicit/cpu/als.py:479-490`). -/
def leastSquaresPy (solve : Mat f V → Vec f V → Option (Vec f V)) (C : SpRows V) (X Y : List (Vec f V)) (reg : V) :
    Except Err (List (Vec f V)) :=
  (List.range X.length).mapM fun u =>
    match C[u]? with
    | none => .error .indexError
    | some row => A.leastSquaresPyRow solve (A.gram Y) Y reg row

/-- `fit` of CPU ALS from the factors `init` (`implicit/cpu/als.py:97-201`): the iterations and the check for NaN. -/
def alsFit (solver : SweepFn f V) (cols : Nat) (Cui : SpRows V) (reg : V) (iterations : Nat) (init : Factors f V) :
    Except Err (Factors f V) :=
  cpuFit A.isNaN (fun _ => alsIteration solver Cui (transposeRows cols Cui) reg) iterations init

/-! ## GPU -/

/-- One row of the kernel with its fallback: if `rsold` is NaN the row becomes zero (`implicit/gpu/als.cu:41-107`). -/
def gpuRow (G : Mat f V) (tol : V) (steps : Nat) (Y : List (Vec f V)) (row : List (Nat × V)) (x : Vec f V) :
    Except Err (Vec f V) :=
  if row.isEmpty then .ok (fun _ => A.zero)
  else do
    let es ← rowEntries .undefinedBehaviour Y row
    let out := A.cgSolve G tol steps es x
    pure (if A.isNaN out.2 then fun _ => A.zero else out.1)

/-- `least_squares` (`implicit/gpu/als.cu:151-197`). -/
def gpuLeastSquares (tol : V) (steps : Nat) (G : Mat f V) (cols : Nat) (C : SpRows V) (X Y : List (Vec f V)) :
    Except Err (List (Vec f V)) :=
  if X.length < C.length then .error .valueError
  else if Y.length < cols then .error .valueError
  else
    X.zipIdx.mapM fun xu =>
      match C[xu.2]? with
      | none => .error .undefinedBehaviour
      | some row => A.gpuRow G tol steps Y row xu.1

/-- One iteration (`implicit/gpu/als.py:157-162`). -/
def gpuIteration (tol reg : V) (steps users items : Nat) (Cui Ciu : SpRows V) (m : Factors f V) : Except Err (Factors f V) := do
  let X ← A.gpuLeastSquares tol steps (A.regularised (A.gram m.item) reg) items Cui m.user m.item
  let Y ← A.gpuLeastSquares tol steps (A.regularised (A.gram X) reg) users Ciu m.item X
  pure ⟨X, Y⟩

/-- `fit` of GPU ALS from the factors `init` (`implicit/gpu/als.py:81-179`). -/
def gpuAlsFit (tol reg : V) (steps cols : Nat) (C : SpRows V) (iterations : Nat) (init : Factors f V) :
    Except Err (Factors f V) :=
  gpuFit (fun _ => A.gpuIteration tol reg steps C.length cols C (transposeRows cols C)) iterations init

/-! ## BPR -/

/-- The instructions of `bpr_update` (`implicit/cpu/bpr.pyx:268-301`); `sig` is `1.0 / (1.0 + exp(score))`, `half` is `.5`. -/
def bprAct (sig : V → V) (half lr reg : V) : Act BprInstr (BprScratch V) BprCell V
  | .skip, s, m => ({ s with skipped := s.skipped + 1 }, m)
  | .zero, s, m => ({ s with score := A.zero }, m)
  | .loadUser t j, s, m => ({ s with a := m (.user t.user j) }, m)
  | .loadLiked t j, s, m => ({ s with b := m (.item t.liked j) }, m)
  | .loadDisliked t j, s, m => ({ s with c := m (.item t.disliked j) }, m)
  | .score, s, m => ({ s with score := A.add s.score (A.mul s.a (A.sub s.b s.c)) }, m)
  | .logistic, s, m =>
    ({ s with z := sig s.score, correct := if A.lt (sig s.score) half then s.correct + 1 else s.correct }, m)
  | .keep, s, m => ({ s with temp := s.a }, m)
  | .storeUser t j, s, m =>
    (s, Function.update m (.user t.user j)
      (A.add s.a (A.mul lr (A.sub (A.mul s.z (A.sub s.b s.c)) (A.mul reg s.a)))))
  | .storeLiked t j, s, m =>
    (s, Function.update m (.item t.liked j)
      (A.add s.b (A.mul lr (A.sub (A.mul s.z s.temp) (A.mul reg s.b)))))
  | .storeDisliked t j, s, m =>
    (s, Function.update m (.item t.disliked j)
      (A.add s.c (A.mul lr (A.sub (A.mul (A.mul A.negOne s.z) s.temp) (A.mul reg s.c)))))
  | .storeLikedBias t j, s, m =>
    (s, Function.update m (.item t.liked j) (A.add s.b (A.mul lr (A.sub s.z (A.mul reg s.b)))))
  | .storeDislikedBias t j, s, m =>
    (s, Function.update m (.item t.disliked j)
      (A.add s.c (A.mul lr (A.sub (A.mul A.negOne s.z) (A.mul reg s.c)))))

variable {Th : Type} [DecidableEq Th]

/-- The factor matrices after one epoch. -/
def bprEpoch (sig : V → V) (half lr reg : V) (σ : Th → BprScratch V) (e : BprEpoch Th) (m : BprCell → V) :
    (Th → BprScratch V) × (BprCell → V) :=
  execInterleaved (A.bprAct sig half lr reg) e.schedule (fun t => (σ t).fresh) m

/-- The epochs of `fit` (`implicit/cpu/bpr.pyx:190-205`). -/
def bprEpochs (sig : V → V) (half lr reg : V) (σ : Th → BprScratch V) : List (BprEpoch Th) → (BprCell → V) → (BprCell → V)
  | [], m => m
  | e :: es, m => bprEpochs sig half lr reg σ es (A.bprEpoch sig half lr reg σ e m).2

/-- `fit` on a model with `users` and `items` stored rows (`implicit/cpu/bpr.pyx:122-207`): the epochs and the check for NaN.
`factors` excludes the bias column. -/
def bprFit (users items factors : Nat) (sig : V → V) (half lr reg : V) (σ : Th → BprScratch V) (epochs : List (BprEpoch Th))
    (m : BprCell → V) : Except Err (BprCell → V) := do
  let m := A.bprEpochs sig half lr reg σ epochs m
  checkFitErrors (f := factors + 1) A.isNaN
    ⟨(List.range users).map fun u j => m (.user u j), (List.range items).map fun i j => m (.item i j)⟩
  pure m

/-- The instructions of the CUDA kernel (`implicit/gpu/bpr.cu:28-64`). -/
def gpuBprAct (sig : V → V) (half lr reg : V) (cols : Nat) : Act (GpuBprInstr V) (GpuBprScratch V) BprCell V
  | .skip, s, m => ({ s with skipped := s.skipped + 1 }, m)
  | .loadUser t l, s, m => ({ s with userVal := m (.user t.user l) }, m)
  | .loadLiked t l, s, m => ({ s with likedVal := m (.item t.liked l) }, m)
  | .loadDisliked t l, s, m => ({ s with dislikedVal := m (.item t.disliked l) }, m)
  | .logistic score, s, m =>
    ({ s with z := sig score, correct := if A.lt (sig score) half then s.correct + 1 else s.correct }, m)
  | .storeLiked t l, s, m =>
    (s, Function.update m (.item t.liked l)
      (A.add (m (.item t.liked l)) (A.mul lr (A.sub (A.mul s.z s.userVal) (A.mul reg s.likedVal)))))
  | .storeDisliked t l, s, m =>
    (s, Function.update m (.item t.disliked l)
      (A.add (m (.item t.disliked l)) (A.mul lr (A.sub (A.mul (A.mul A.negOne s.z) s.userVal) (A.mul reg s.dislikedVal)))))
  | .storeUser t l, s, m =>
    (s, if l < cols then
        Function.update m (.user t.user l)
          (A.add (m (.user t.user l)) (A.mul lr (A.sub (A.mul s.z (A.sub s.likedVal s.dislikedVal)) (A.mul reg s.userVal))))
      else m)

/-- One launch of the kernel. -/
def gpuBprEpoch {B : Type} [DecidableEq B] {cols : Nat} (sig : V → V) (half lr reg : V) (σ : B × Fin cols → GpuBprScratch V)
    (e : GpuBprEpoch B V cols) (m : BprCell → V) : (B × Fin cols → GpuBprScratch V) × (BprCell → V) :=
  execInterleaved (A.gpuBprAct sig half lr reg cols) e.schedule (fun t => { σ t with correct := 0, skipped := 0 }) m

/-- The epochs of the GPU `fit` (`implicit/gpu/bpr.py:134-158`); nothing is checked afterwards. -/
def gpuBprEpochs {B : Type} [DecidableEq B] {cols : Nat} (sig : V → V) (half lr reg : V)
    (σ : B × Fin cols → GpuBprScratch V) : List (GpuBprEpoch B V cols) → (BprCell → V) → (BprCell → V)
  | [], m => m
  | e :: es, m => gpuBprEpochs sig half lr reg σ es (A.gpuBprEpoch sig half lr reg σ e m).2

/-! ## LMF -/

/-- The buffer `deriv` before the last loop (`implicit/cpu/lmf.pyx:256-284`). -/
def lmfDeriv (sigm : V → V) (x : Vec f V) (pos : List (Vec f V × V)) (neg : List (Vec f V)) : Vec f V :=
  neg.foldl (fun d y a => A.sub (d a) (A.mul (sigm (A.dot x y)) (y a)))
    (pos.foldl (fun d e a => A.sub (d a) (A.mul (A.mul (sigm (A.dot x e.1)) e.2) (e.1 a)))
      (pos.foldl (fun d e a => A.add (d a) (A.mul e.2 (e.1 a))) fun _ => A.zero))

/-- The update of a row (`implicit/cpu/lmf.pyx:251-290`). -/
def lmfRow (sigm sqrt : V → V) (eps lr reg : V) (pos : List (Vec f V × V)) (neg : List (Vec f V)) (x s : Vec f V) :
    Vec f V × Vec f V :=
  if pos.isEmpty then (x, s)
  else
    let d : Vec f V := fun a => A.sub (A.lmfDeriv sigm x pos neg a) (A.mul reg (x a))
    let s' : Vec f V := fun a => A.add (s a) (A.mul (d a) (d a))
    (fun a => A.add (x a) (A.mul (A.div lr (sqrt (A.add eps (s' a)))) (d a)), s')

/-- One row of `lmf_update`. -/
def lmfRowAt (sigm sqrt : V → V) (eps lr reg : V) (negProp : Int) (C : SpRows V) (Y : List (Vec f V))
    (draws : Nat → Nat → Nat) (sums : List (Vec f V)) (u : Nat) (x : Vec f V) : Except Err (Vec f V × Vec f V) :=
  match C[u]?, sums[u]? with
  | some row, some s => do
    let pos ← rowEntries .undefinedBehaviour Y row
    let neg ← lmfNegRows (lmfIndices C) Y (lmfRowDraws f negProp row.length (draws u))
    pure (A.lmfRow sigm sqrt eps lr reg pos neg x s)
  | _, _ => .error .undefinedBehaviour

/-- `lmf_update` (`implicit/cpu/lmf.pyx:231-292`). -/
def lmfUpdate (sigm sqrt : V → V) (eps lr reg : V) (negProp : Int) (C : SpRows V) (Y : List (Vec f V))
    (draws : Nat → Nat → Nat) (side : LmfSide f V) : Except Err (LmfSide f V) := do
  let out ← side.factors.zipIdx.mapM fun p => A.lmfRowAt sigm sqrt eps lr reg negProp C Y draws side.sums p.2 p.1
  pure ⟨out.map Prod.fst, out.map Prod.snd ++ side.sums.drop side.factors.length⟩

/-- `X[:, j] = 1.0`. -/
def setColumn (j : Fin f) (X : List (Vec f V)) : List (Vec f V) := X.map fun x => Function.update x j A.one

/-- One epoch (`implicit/cpu/lmf.pyx:182-194`). -/
def lmfEpoch {factors : Nat} (sigm sqrt : V → V) (eps lr reg : V) (negProp : Int) (C Ct : SpRows V)
    (st : LmfState (factors + 2) V) (d : LmfDraws) : Except Err (LmfState (factors + 2) V) := do
  let user ← A.lmfUpdate sigm sqrt eps lr reg negProp C st.item.factors d.user st.user
  let user := { user with factors := A.setColumn ⟨factors, by omega⟩ user.factors }
  let item ← A.lmfUpdate sigm sqrt eps lr reg negProp Ct user.factors d.item st.item
  let item := { item with factors := A.setColumn ⟨factors + 1, by omega⟩ item.factors }
  pure ⟨user, item⟩

/-- The epochs (`implicit/cpu/lmf.pyx:179-197`). -/
def lmfEpochs {factors : Nat} (sigm sqrt : V → V) (eps lr reg : V) (negProp : Int) (C Ct : SpRows V) :
    List LmfDraws → LmfState (factors + 2) V → Except Err (LmfState (factors + 2) V)
  | [], st => .ok st
  | d :: ds, st => do
    let st ← A.lmfEpoch sigm sqrt eps lr reg negProp C Ct st d
    lmfEpochs sigm sqrt eps lr reg negProp C Ct ds st

/-- `fit` of a model that has the factors `X`, `Y` (`implicit/cpu/lmf.pyx:112-199`): new sums of squares, the epochs, the check
for NaN. -/
def lmfRefit {factors : Nat} (sigm sqrt : V → V) (eps lr reg : V) (negProp : Int) (cols : Nat) (C : SpRows V)
    (draws : List LmfDraws) (m : Factors (factors + 2) V) : Except Err (Factors (factors + 2) V) := do
  let st ← A.lmfEpochs sigm sqrt eps lr reg negProp C (transposeRows cols C) draws
    ⟨⟨m.user, List.replicate C.length fun _ => A.zero⟩, ⟨m.item, List.replicate cols fun _ => A.zero⟩⟩
  let m : Factors (factors + 2) V := ⟨st.user.factors, st.item.factors⟩
  checkFitErrors A.isNaN m
  pure m

end FloatOps

end Implicit
