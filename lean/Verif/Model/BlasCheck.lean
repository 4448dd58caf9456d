import Verif.Model.Basic
/-!
# The check of the BLAS configuration (`implicit/utils.py:15-62`)

Called from the constructor of the CPU ALS model (`implicit/cpu/als.py:95`), hence also by `load` and by `to_cpu` of a GPU model.
The global variable lives as long as the process.
-/

namespace Implicit

/-- What `threadpoolctl.threadpool_info()` says about one native library. -/
structure PoolInfo where
  userApi : String
  internalApi : String
  numThreads : Nat
  deriving DecidableEq

/-- The warnings (`implicit/utils.py:33-60`). -/
inductive BlasWarning where
  | openblas (threads : Nat)
  | mkl (threads : Nat)
  | other (library : String) (threads : Nat)
  deriving DecidableEq

/-- Which warning (`implicit/utils.py:31-60`). -/
def PoolInfo.warning (p : PoolInfo) : BlasWarning :=
  if p.internalApi = "openblas" then .openblas p.numThreads
  else if p.internalApi = "mkl" then .mkl p.numThreads
  else .other p.internalApi p.numThreads

/-- The loop (`implicit/utils.py:26-60`): the warnings issued, and whether the last one was raised as an exception (`raises`: the
warning filters of the process say "error" for it). -/
def warnPools (raises : BlasWarning → Bool) : List PoolInfo → List BlasWarning × Bool
  | [] => ([], false)
  | p :: ps =>
    if p.userApi ≠ "blas" ∨ p.numThreads = 1 then warnPools raises ps
    else if raises p.warning then ([p.warning], true)
    else
      let rest := warnPools raises ps
      (p.warning :: rest.1, rest.2)

/-- What of a process matters: the libraries it has loaded, its warning filters, `_checked_blas_config`, and the number of CPU ALS
models created so far. -/
structure BlasProcess where
  pools : List PoolInfo
  raises : BlasWarning → Bool
  checked : Bool
  models : Nat

/-- `check_blas_config` (`implicit/utils.py:18-62`): the new flag, the warnings, whether it raised. -/
def checkBlasConfig (s : BlasProcess) : Bool × List BlasWarning × Bool :=
  if s.checked then (true, [], false)
  else
    let w := warnPools s.raises s.pools
    (!w.2, w.1, w.2)

/-- What a program does. -/
inductive BlasEvent where
  /-- a CPU ALS model is created (`implicit/cpu/als.py:60-95`) -/
  | create
  /-- a CPU ALS model is trained; nothing is checked (`implicit/cpu/als.py:97-201`) -/
  | fit
  /-- libraries are loaded, or the number of their threads is changed (`threadpoolctl.threadpool_limits`) -/
  | configure (pools : List PoolInfo)
  /-- `warnings.simplefilter` and the like -/
  | filters (raises : BlasWarning → Bool)

/-- What is seen of an event. -/
structure BlasSeen where
  warnings : List BlasWarning
  raised : Bool
  deriving DecidableEq

/-- One event.  There is no model to train before one has been created: `fit` then raises. -/
def blasStep (s : BlasProcess) : BlasEvent → BlasProcess × BlasSeen
  | .create =>
    let c := checkBlasConfig s
    ({ s with checked := c.1, models := if c.2.2 then s.models else s.models + 1 }, ⟨c.2.1, c.2.2⟩)
  | .fit => (s, ⟨[], s.models == 0⟩)
  | .configure pools => ({ s with pools := pools }, ⟨[], false⟩)
  | .filters raises => ({ s with raises := raises }, ⟨[], false⟩)

/-- A program. -/
def blasRun (s : BlasProcess) : List BlasEvent → BlasProcess × List BlasSeen
  | [] => (s, [])
  | e :: es =>
    let r := blasStep s e
    let rest := blasRun r.1 es
    (rest.1, r.2 :: rest.2)

/-- A new process. -/
def newProcess (pools : List PoolInfo) (raises : BlasWarning → Bool) : BlasProcess := ⟨pools, raises, false, 0⟩

end Implicit
