import Verif.Model.BPR
import Verif.Model.LMF

/-!
# Model: `random_state` of the models

numpy and cuRAND generators are parameters.  `legacyInt` is `RandomState.randint(2**31)` and `genInt` is
`Generator.integers(2**31)`, which also advance their argument.
-/

namespace Implicit

/-- The random number libraries. `rows g n cols` draws an `n` by `cols` matrix, `ints g n` draws `n` integers;
both return the advanced generator. -/
structure SeedLib (R Gen Legacy Dev : Type) where
  ofSeed : Nat → Gen
  rows : Gen → Nat → (cols : Nat) → (Nat → Vec cols R) × Gen
  ints : Gen → Nat → List Nat × Gen
  legacyInt : Legacy → Nat
  genInt : Gen → Nat
  device : Int → Dev
  deviceRows : Dev → Nat → (cols : Nat) → (Nat → Vec cols R) × Dev

/-- What else a call can depend on: operating system entropy and the clock in seconds. -/
structure World (Gen : Type) where
  entropy : Gen
  clock : Int

/-- The documented kinds of `random_state`. -/
inductive SeedArg (Gen Legacy : Type) where
  | none
  | int (n : Int)
  | generator (g : Gen)
  | legacy (s : Legacy)

variable {R Gen Legacy Dev : Type}

/-- utils.py:65-83, used by all CPU models and by the GPU BPR model (gpu/bpr.py:9).
`np.random.RandomState` has no method `rand_int`; `np.random.default_rng` refuses negative seeds and returns a
`Generator` unchanged. -/
def cpuRandomState (L : SeedLib R Gen Legacy Dev) (W : World Gen) : SeedArg Gen Legacy → Except Err Gen
  | .none => .ok W.entropy
  | .int n => if n < 0 then .error .valueError else .ok (L.ofSeed n.toNat)
  | .generator g => .ok g
  | .legacy _ => .error .attributeError

/-- gpu/matrix_factorization_base.py:234-256, used by the GPU ALS model.  The seed is a C `long`
(gpu/_cuda.pyx:28), larger integers raise `OverflowError`; `random_state or int(time.time())` takes the clock
for `None` and for `0`. -/
def gpuRandomState (L : SeedLib R Gen Legacy Dev) (W : World Gen) : SeedArg Gen Legacy → Except Err Dev
  | .legacy s => .ok (L.device (L.legacyInt s))
  | .generator g => .ok (L.device (L.genInt g))
  | .none => .ok (L.device W.clock)
  | .int n =>
    let seed := if n = 0 then W.clock else n
    if -2 ^ 63 ≤ seed ∧ seed < 2 ^ 63 then .ok (L.device seed) else .error .valueError

/-- Random initial factors of the CPU ALS model: cpu/als.py:125, 143-146 (the factor `0.01` is part of
`scale`). -/
def alsInitial (L : SeedLib R Gen Legacy Dev) (W : World Gen) (scale : R → R) (users items factors : Nat)
    (arg : SeedArg Gen Legacy) : Except Err (List (Vec factors R) × List (Vec factors R)) := do
  let g ← cpuRandomState L W arg
  let (u, g) := L.rows g users factors
  let (i, _) := L.rows g items factors
  .ok ((List.range users).map fun r j => scale (u r j), (List.range items).map fun r j => scale (i r j))

/-- Random initial factors and thread seeds of the CPU BPR model: cpu/bpr.pyx:137, 158-173, 186. -/
def bprInitial [Zero R] [One R] (L : SeedLib R Gen Legacy Dev) (W : World Gen) (scale : R → R)
    (rows : List (List Nat)) (items factors threads : Nat) (arg : SeedArg Gen Legacy) :
    Except Err (List (Vec (factors + 1) R) × List (Vec (factors + 1) R) × List Nat) := do
  let g ← cpuRandomState L W arg
  let (i, g) := L.rows g items (factors + 1)
  let (u, g) := L.rows g rows.length (factors + 1)
  let (seeds, _) := L.ints g threads
  let item := (List.range items).map fun r j => if rows.flatten.count r = 0 then 0 else scale (i r j)
  let user := (List.range rows.length).map fun r j =>
    if j.1 = factors then 1 else if (rows[r]?.getD []).length = 0 then 0 else scale (u r j)
  .ok (item, user, seeds)

/-- Random initial factors of the GPU ALS model: gpu/als.py:108-135. -/
def gpuAlsInitial (L : SeedLib R Gen Legacy Dev) (W : World Gen) (users items factors : Nat)
    (arg : SeedArg Gen Legacy) : Except Err (List (Vec factors R) × List (Vec factors R)) := do
  let g ← gpuRandomState L W arg
  let (u, g) := L.deviceRows g users factors
  let (i, _) := L.deviceRows g items factors
  .ok ((List.range users).map u, (List.range items).map i)

end Implicit
