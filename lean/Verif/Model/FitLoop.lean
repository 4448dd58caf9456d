import Mathlib.Data.Rat.Defs
import Verif.Model.ALS
import Verif.Model.GpuALS
import Verif.Model.FitCheck
import Verif.Model.Factory
/-!
# The training loops with their callbacks

`implicit/cpu/als.py:158-201`, `implicit/gpu/als.py:148-179`, `implicit/cpu/bpr.pyx:190-207`, `implicit/gpu/bpr.py:126-158`,
`implicit/cpu/lmf.pyx:178-199`.  A callback is arbitrary python code: it may raise, and it may change the model (assign other
factors, another regularization, another `fit_callback`).  Left out: the progress bar and logging.
-/

namespace Implicit

/-- A callable object, called with what follows the iteration number.  `truthy` is `bool(callback)`: true for functions, but an
object can define `__bool__` or `__len__`. -/
structure PyCallback (M I : Type) where
  truthy : Bool
  call : Nat → Rat → I → M → Except Err Unit × M

/-- A call of a callback: which one, the arguments, and the model it finds. -/
structure CallEvent (M I : Type) where
  who : Nat
  iteration : Nat
  elapsed : Rat
  info : I
  seen : M

/-- What `fit` leaves behind. -/
structure FitRun (M I : Type) where
  outcome : Except Err Unit
  model : M
  calls : List (CallEvent M I)

/-- The parts in which the loops differ: the body up to the callback, which gives the last arguments of the callback, and the
attribute used when no callback was passed (`self.fit_callback`; models other than ALS have none). -/
structure TrainLoop (M I : Type) where
  body : M → Except Err I × M
  fallback : M → Option Nat

variable {M I : Type}

/-- `bool(callback)`; callbacks are numbered. -/
def truthyCb (cbs : Nat → PyCallback M I) : Option Nat → Bool
  | none => false
  | some c => (cbs c).truthy

/-- `for iteration in range(iterations)`: `n` iterations are left, the next is number `i`; `cb` is the local variable
`callback`, `clock` the readings of `time.time()`, two in each iteration. -/
def fitLoop (L : TrainLoop M I) (cbs : Nat → PyCallback M I) (clock : Nat → Rat) : Nat → Nat → Option Nat → M → FitRun M I
  | 0, _, _, m => ⟨.ok (), m, []⟩
  | n + 1, i, cb, m =>
    match L.body m with
    | (.error e, m) => ⟨.error e, m, []⟩
    | (.ok info, m) =>
      -- `if not callback: callback = self.fit_callback`
      let cb := if truthyCb cbs cb then cb else L.fallback m
      match cb with
      | none => fitLoop L cbs clock n (i + 1) none m
      | some c =>
        if (cbs c).truthy then
          let elapsed := clock (2 * i + 1) - clock (2 * i)
          let event : CallEvent M I := ⟨c, i, elapsed, info, m⟩
          match (cbs c).call i elapsed info m with
          | (.error e, m) => ⟨.error e, m, [event]⟩
          | (.ok _, m) =>
            let run := fitLoop L cbs clock n (i + 1) (some c) m
            ⟨run.outcome, run.model, event :: run.calls⟩
        else fitLoop L cbs clock n (i + 1) (some c) m

/-- `fit` from the loop on: the CPU models end with `_check_fit_errors`. -/
def fitRun (L : TrainLoop M I) (check : M → Except Err Unit) (cbs : Nat → PyCallback M I) (clock : Nat → Rat) (iterations : Nat)
    (callback : Option Nat) (m : M) : FitRun M I :=
  let run := fitLoop L cbs clock iterations 0 callback m
  match run.outcome with
  | .error _ => run
  | .ok _ => { run with outcome := check run.model }

variable {R : Type} [LinearOrder R] [Field R] {f : Nat}

/-- The attributes of a CPU ALS model that the loop reads in every iteration. -/
structure AlsTrainee (f : Nat) (R : Type) where
  factors : Factors f R
  regularization : R
  calculateTrainingLoss : Bool
  fitCallback : Option Nat

/-- The loop of CPU ALS (`implicit/cpu/als.py:161-196`).  The solver is chosen before the loop; factors and regularization are
read from the model in each iteration.  `torn`: what an iteration leaves behind if it raises.  Simplified: if a callback switches
`calculate_training_loss` off, the code keeps passing the last loss; here it is none. -/
def alsLoop (solver : SweepFn f R) (torn : Factors f R → Factors f R) (cols : Nat) (Cui : SpRows R) :
    TrainLoop (AlsTrainee f R) (Option R) where
  body m :=
    match alsIteration solver Cui (transposeRows cols Cui) m.regularization m.factors with
    | .error e => (.error e, { m with factors := torn m.factors })
    | .ok x =>
      let m := { m with factors := x }
      if m.calculateTrainingLoss then
        match calculateLoss Cui cols x.user x.item m.regularization with
        | .error e => (.error e, m)
        | .ok loss => (.ok (some loss), m)
      else (.ok none, m)
  fallback m := m.fitCallback

/-- A GPU ALS model during training: `X` and `Y` are bound before the loop (`implicit/gpu/als.py:144-145`); `rebound` are the
factors a callback has assigned to the attributes, if any. -/
structure GpuAlsTrainee (f : Nat) (R : Type) where
  local_ : Factors f R
  rebound : Option (Factors f R)
  regularization : R
  cgSteps : Nat
  calculateTrainingLoss : Bool
  fitCallback : Option Nat

/-- The factors of the model. -/
def GpuAlsTrainee.factors (m : GpuAlsTrainee f R) : Factors f R := m.rebound.getD m.local_

/-- The loop of GPU ALS (`implicit/gpu/als.py:154-176`). -/
def gpuAlsLoop (tol : R) (torn : Factors f R → Factors f R) (cols : Nat) (Cui : SpRows R) :
    TrainLoop (GpuAlsTrainee f R) (Option R) where
  body m :=
    match gpuIteration tol ⟨m.regularization, 1, m.cgSteps, 0⟩ Cui.length cols Cui (transposeRows cols Cui) m.local_ with
    | .error e => (.error e, { m with local_ := torn m.local_ })
    | .ok x =>
      let m := { m with local_ := x }
      if m.calculateTrainingLoss then
        match calculateLoss Cui cols x.user x.item m.regularization with
        | .error e => (.error e, m)
        | .ok loss => (.ok (some loss), m)
      else (.ok none, m)
  fallback m := m.fitCallback

/-- How many arguments the callbacks are called with: `(iteration, elapsed, loss)` (`implicit/cpu/als.py:196`,
`implicit/gpu/als.py:176`), `(epoch, elapsed, correct, skipped)` (`implicit/cpu/bpr.pyx:205`, `implicit/gpu/bpr.py:158`),
`(epoch, elapsed)` (`implicit/cpu/lmf.pyx:197`). -/
def callbackArgs : PyClass → Nat
  | .cpuAls => 3
  | .gpuAls => 3
  | .cpuBpr => 4
  | .gpuBpr => 4
  | .cpuLmf => 2
  -- the approximate models pass the callback on (`implicit/ann/annoy.py:68`, `implicit/ann/nmslib.py:80`,
  -- `implicit/ann/faiss.py:77`); by default the wrapped model is ALS
  | .annoy => 3
  | .nmslib => 3
  | .faiss => 3

end Implicit
