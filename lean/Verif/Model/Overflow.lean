import Verif.Model.FloatTraining
import Verif.Model.Rounding
/-!
# Logistic matrix factorisation and the logistic function of BPR with rounding and overflow

`implicit/cpu/lmf.pyx` on numbers of bounded size: `none` is an infinity or NaN, and nothing becomes finite again.  The factors and their
sums of squares have one precision (`r`, with largest number `Ω`); the logistic function and the length of the step are computed in double
precision (`s`, `Ω'`), because `exp`, `sqrt` and the constant `1e-6` are.
-/

namespace Implicit

variable {f : Nat} {V : Type}

/-- A result that is rounded, and lost if it is too large. -/
noncomputable def limit (r : Rounding ℝ) (Ω x : ℝ) : Option ℝ := if |r.rnd x| ≤ Ω then some (r.rnd x) else none

/-- Operations that round and overflow. -/
noncomputable def limitOps (r : Rounding ℝ) (Ω : ℝ) : FloatOps (Option ℝ) where
  zero := some 0
  one := some 1
  add a b := do limit r Ω ((← a) + (← b))
  sub a b := do limit r Ω ((← a) - (← b))
  mul a b := do limit r Ω ((← a) * (← b))
  div a b := do
    let a ← a
    let b ← b
    if b = 0 then none else limit r Ω (a / b)
  lt a b := match a, b with
    | some a, some b => decide (a < b)
    | _, _ => false
  axpy t y z := do limit r Ω ((← z) + (← limit r Ω ((← t) * (← y))))
  isNaN a := a.isNone

/-- `sqrt`. -/
noncomputable def limitSqrt (s : Rounding ℝ) (Ω : ℝ) (a : Option ℝ) : Option ℝ := do
  let x ← a
  if x < 0 then none else limit s Ω (Real.sqrt x)

/-- `sigmoid` (`implicit/cpu/lmf.pyx:220-226`); `ex` is the `exp` of the C library. -/
noncomputable def limitSigmoid (r s : Rounding ℝ) (Ω : ℝ) (ex : ℝ → ℝ) (a : Option ℝ) : Option ℝ := do
  let x ← a
  if 0 ≤ x then limit r Ω (s.rnd (1 / s.rnd (1 + ex (-x))))
  else limit r Ω (s.rnd (ex x / s.rnd (1 + ex x)))

/-- `z = 1.0 / (1.0 + exp(score))` (`implicit/cpu/bpr.pyx:287`), computed in double precision and converted when it is stored; values of `ex`
above the largest number `Ω'` stand for infinity, which gives `1.0 / inf = 0`. -/
noncomputable def limitBprSig (r s : Rounding ℝ) (Ω Ω' : ℝ) (ex : ℝ → ℝ) (a : Option ℝ) : Option ℝ := do
  let x ← a
  if ex x ≤ Ω' ∧ s.rnd (1 + ex x) ≤ Ω' then limit r Ω (s.rnd (1 / s.rnd (1 + ex x)))
  else limit r Ω (s.rnd 0)

/-- The update of a row (`implicit/cpu/lmf.pyx:251-290`) with operations `A` for the factors and `B` for the step; `cast` converts the new
factor when it is stored. -/
def mixedLmfRow (A B : FloatOps V) (cast sigm sqrt : V → V) (eps lr reg : V) (pos : List (Vec f V × V)) (neg : List (Vec f V)) (x s : Vec f V) :
    Vec f V × Vec f V :=
  if pos.isEmpty then (x, s)
  else
    let d : Vec f V := fun a => A.sub (A.lmfDeriv sigm x pos neg a) (A.mul reg (x a))
    let s' : Vec f V := fun a => A.add (s a) (A.mul (d a) (d a))
    (fun a => cast (B.add (x a) (B.mul (B.div lr (sqrt (B.add eps (s' a)))) (d a))), s')

/-- What updates a row, from its positive and negative entries, the old row, and the sums of squares. -/
abbrev LmfRowFn (f : Nat) (V : Type) := List (Vec f V × V) → List (Vec f V) → Vec f V → Vec f V → Vec f V × Vec f V

/-- One row of `lmf_update`. -/
def lmfRowAtWith (row : LmfRowFn f V) (negProp : Int) (C : SpRows V) (Y : List (Vec f V)) (draws : Nat → Nat → Nat) (sums : List (Vec f V))
    (u : Nat) (x : Vec f V) : Except Err (Vec f V × Vec f V) :=
  match C[u]?, sums[u]? with
  | some entries, some s => do
    let pos ← rowEntries .undefinedBehaviour Y entries
    let neg ← lmfNegRows (lmfIndices C) Y (lmfRowDraws f negProp entries.length (draws u))
    pure (row pos neg x s)
  | _, _ => .error .undefinedBehaviour

/-- `lmf_update` (`implicit/cpu/lmf.pyx:231-292`). -/
def lmfUpdateWith (row : LmfRowFn f V) (negProp : Int) (C : SpRows V) (Y : List (Vec f V)) (draws : Nat → Nat → Nat) (side : LmfSide f V) :
    Except Err (LmfSide f V) := do
  let out ← side.factors.zipIdx.mapM fun p => lmfRowAtWith row negProp C Y draws side.sums p.2 p.1
  pure ⟨out.map Prod.fst, out.map Prod.snd ++ side.sums.drop side.factors.length⟩

/-- One epoch (`implicit/cpu/lmf.pyx:182-194`). -/
def lmfEpochWith {factors : Nat} (A : FloatOps V) (row : LmfRowFn (factors + 2) V) (negProp : Int) (C Ct : SpRows V)
    (st : LmfState (factors + 2) V) (d : LmfDraws) : Except Err (LmfState (factors + 2) V) := do
  let user ← lmfUpdateWith row negProp C st.item.factors d.user st.user
  let user := { user with factors := A.setColumn ⟨factors, by omega⟩ user.factors }
  let item ← lmfUpdateWith row negProp Ct user.factors d.item st.item
  let item := { item with factors := A.setColumn ⟨factors + 1, by omega⟩ item.factors }
  pure ⟨user, item⟩

/-- The epochs (`implicit/cpu/lmf.pyx:179-197`). -/
def lmfEpochsWith {factors : Nat} (A : FloatOps V) (row : LmfRowFn (factors + 2) V) (negProp : Int) (C Ct : SpRows V) :
    List LmfDraws → LmfState (factors + 2) V → Except Err (LmfState (factors + 2) V)
  | [], st => .ok st
  | d :: ds, st => do
    let st ← lmfEpochWith A row negProp C Ct st d
    lmfEpochsWith A row negProp C Ct ds st

/-- `fit` of a model that has the factors `m` (`implicit/cpu/lmf.pyx:112-199`): new sums of squares, the epochs, the check for NaN. -/
def lmfRefitWith {factors : Nat} (A : FloatOps V) (row : LmfRowFn (factors + 2) V) (negProp : Int) (cols : Nat) (C : SpRows V)
    (draws : List LmfDraws) (m : Factors (factors + 2) V) : Except Err (Factors (factors + 2) V) := do
  let st ← lmfEpochsWith A row negProp C (transposeRows cols C) draws
    ⟨⟨m.user, List.replicate C.length fun _ => A.zero⟩, ⟨m.item, List.replicate cols fun _ => A.zero⟩⟩
  let m : Factors (factors + 2) V := ⟨st.user.factors, st.item.factors⟩
  checkFitErrors A.isNaN m
  pure m

/-- `fit` of `LogisticMatrixFactorization` in floating point. -/
noncomputable def limitLmfFit {factors : Nat} (r s : Rounding ℝ) (Ω Ω' : ℝ) (ex : ℝ → ℝ) (eps lr reg : ℝ) (negProp : Int) (cols : Nat)
    (C : SpRows (Option ℝ)) (draws : List LmfDraws) (m : Factors (factors + 2) (Option ℝ)) : Except Err (Factors (factors + 2) (Option ℝ)) :=
  lmfRefitWith (limitOps r Ω)
    (mixedLmfRow (limitOps r Ω) (limitOps s Ω') (fun a => a.bind (limit r Ω)) (limitSigmoid r s Ω ex) (limitSqrt s Ω') (some eps) (some lr) (some reg))
    negProp cols C draws m

end Implicit
