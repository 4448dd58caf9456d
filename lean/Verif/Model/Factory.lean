import Mathlib.Data.Rat.Defs
import Verif.Model.Basic
import Verif.Spec.Call
/-!
# Factory functions and constructors: `implicit/als.py`, `implicit/bpr.py`, `implicit/lmf.py`, `implicit/approximate_als.py`

Arguments are passed by python's rules for positional and keyword arguments.  A model is the list of its
hyper-parameter attributes.  Left out: the import of the approximate nearest neighbour packages,
`check_blas_config`, and attributes that are not parameters.
-/

namespace Implicit

open Spec (Call)

/-- Names of parameters and attributes. -/
inductive PName where
  | factors | regularization | alpha | dtype | use_native | use_cg | use_gpu | iterations
  | calculate_training_loss | num_threads | random_state | learning_rate | verify_negative_samples | neg_prop
  | model | approximate_similar_items | approximate_recommend | n_trees | search_k | method | index_params
  | query_params | nlist | nprobe
  | other (name : String)
  deriving DecidableEq

/-- Python values, as far as the parameters need them; `obj` is any other object. -/
inductive ArgVal where
  | none
  | bool (b : Bool)
  | num (q : Rat)
  | str (s : String)
  | float32
  | dict (entries : List (String × Rat))
  | obj (id : Nat)
  deriving DecidableEq

/-- What the outside decides: whether the CUDA extension works, truth of other objects, `np.dtype`. -/
structure FactoryEnv where
  hasCuda : Bool
  truthyObj : Nat → Bool
  npDtype : ArgVal → Except Err ArgVal

/-- Truth value. -/
def truthyVal (env : FactoryEnv) : ArgVal → Bool
  | .none => false
  | .bool b => b
  | .num q => q != 0
  | .str s => s != ""
  | .float32 => true
  | .dict es => !es.isEmpty
  | .obj i => env.truthyObj i

/-- A signature: parameters that can be given by position or name (`none`: no default), parameters that can only be
given by name, and whether `*args` and `**kwargs` are accepted. -/
structure PySig where
  params : List (PName × Option ArgVal)
  kwOnly : List (PName × ArgVal)
  varArgs : Bool
  varKw : Bool

/-- Bound arguments. -/
structure BoundArgs where
  args : List (PName × ArgVal)
  extraPos : List ArgVal
  extraKw : List (PName × ArgVal)

/-- Value of a bound parameter. -/
def BoundArgs.get (b : BoundArgs) (p : PName) : ArgVal := (b.args.lookup p).getD .none

/-- The value of one parameter: by position, else by name, else the default. -/
def bindParam (kw : List (PName × ArgVal)) (p : PName) (d : Option ArgVal) (pos : Option ArgVal) : Except Err ArgVal :=
  match pos, kw.lookup p, d with
  | some v, _, _ => .ok v
  | none, some v, _ => .ok v
  | none, none, some v => .ok v
  | none, none, none => .error .typeError

/-- The parameters that can be given by position. -/
def bindParams (kw : List (PName × ArgVal)) : List (PName × Option ArgVal) → List ArgVal →
    Except Err (List (PName × ArgVal))
  | [], _ => .ok []
  | (p, d) :: ps, pos => do
    let v ← bindParam kw p d pos.head?
    let rest ← bindParams kw ps pos.tail
    pure ((p, v) :: rest)

/-- The signature has a parameter of this name. -/
def PySig.knows (sig : PySig) (p : PName) : Bool :=
  (sig.params.map Prod.fst).contains p || (sig.kwOnly.map Prod.fst).contains p

/-- Python's binding of arguments; `TypeError` for too many positional arguments, for a keyword given twice
(`f(x=1, **{"x": 2})`), for a keyword already given by position, for unknown keywords and for missing arguments. -/
def pyBind (sig : PySig) (c : Call PName ArgVal) : Except Err BoundArgs :=
  if sig.params.length < c.pos.length ∧ sig.varArgs = false then .error .typeError
  else if ¬ (c.kw.map Prod.fst).Nodup then .error .typeError
  else if (c.kw.any fun e => ((sig.params.take c.pos.length).map Prod.fst).contains e.1) = true then
    .error .typeError
  else if sig.varKw = false ∧ (c.kw.any fun e => !sig.knows e.1) = true then .error .typeError
  else
    match bindParams c.kw sig.params c.pos with
    | .error e => .error e
    | .ok args =>
      .ok ⟨args ++ sig.kwOnly.map (fun e => (e.1, (c.kw.lookup e.1).getD e.2)), c.pos.drop sig.params.length,
        c.kw.filter fun e => !sig.knows e.1⟩

/-! ## Constructors -/

inductive PyClass where
  | cpuAls | gpuAls | cpuBpr | gpuBpr | cpuLmf | annoy | nmslib | faiss
  deriving DecidableEq

/-- An object: its class, its hyper-parameters, and the wrapped model of an approximate model. -/
inductive PyModel where
  | factor (cls : PyClass) (attrs : List (PName × ArgVal))
  | ann (cls : PyClass) (attrs : List (PName × ArgVal)) (inner : PyModel)
  deriving DecidableEq

/-- `implicit/cpu/als.py:60-72`. -/
def cpuAlsSig : PySig where
  params := [(.factors, some (.num 100)), (.regularization, some (.num (1 / 100))), (.alpha, some (.num 1)),
    (.dtype, some .float32), (.use_native, some (.bool true)), (.use_cg, some (.bool true)),
    (.iterations, some (.num 15)), (.calculate_training_loss, some (.bool false)), (.num_threads, some (.num 0)),
    (.random_state, some .none)]
  kwOnly := []
  varArgs := false
  varKw := false

/-- `implicit/cpu/als.py:60-94`. -/
def newCpuAls (env : FactoryEnv) (c : Call PName ArgVal) : Except Err PyModel := do
  let b ← pyBind cpuAlsSig c
  let dtype ← env.npDtype (b.get .dtype)
  pure (.factor .cpuAls [(.num_threads, b.get .num_threads), (.factors, b.get .factors),
    (.regularization, b.get .regularization), (.alpha, b.get .alpha), (.dtype, dtype),
    (.use_native, b.get .use_native), (.use_cg, b.get .use_cg), (.iterations, b.get .iterations),
    (.calculate_training_loss, b.get .calculate_training_loss), (.random_state, b.get .random_state)])

/-- `implicit/gpu/als.py:48-57`. -/
def gpuAlsSig : PySig where
  params := [(.factors, some (.num 64)), (.regularization, some (.num (1 / 100))), (.alpha, some (.num 1)),
    (.dtype, some .float32), (.iterations, some (.num 15)), (.calculate_training_loss, some (.bool false)),
    (.random_state, some .none)]
  kwOnly := []
  varArgs := false
  varKw := false

/-- `implicit/gpu/als.py:48-79`. -/
def newGpuAls (env : FactoryEnv) (c : Call PName ArgVal) : Except Err PyModel := do
  let b ← pyBind gpuAlsSig c
  if env.hasCuda = false then throw .valueError
  pure (.factor .gpuAls [(.factors, b.get .factors), (.regularization, b.get .regularization),
    (.alpha, b.get .alpha), (.dtype, b.get .dtype), (.iterations, b.get .iterations),
    (.calculate_training_loss, b.get .calculate_training_loss), (.random_state, b.get .random_state)])

/-- `implicit/cpu/bpr.pyx:107-109`. -/
def cpuBprSig : PySig where
  params := [(.factors, some (.num 100)), (.learning_rate, some (.num (1 / 100))),
    (.regularization, some (.num (1 / 100))), (.dtype, some .float32), (.iterations, some (.num 100)),
    (.num_threads, some (.num 0)), (.verify_negative_samples, some (.bool true)), (.random_state, some .none)]
  kwOnly := []
  varArgs := false
  varKw := false

/-- `implicit/cpu/bpr.pyx:107-118`. -/
def newCpuBpr (env : FactoryEnv) (c : Call PName ArgVal) : Except Err PyModel := do
  let b ← pyBind cpuBprSig c
  let dtype ← env.npDtype (b.get .dtype)
  pure (.factor .cpuBpr [(.num_threads, b.get .num_threads), (.factors, b.get .factors),
    (.learning_rate, b.get .learning_rate), (.iterations, b.get .iterations),
    (.regularization, b.get .regularization), (.dtype, dtype),
    (.verify_negative_samples, b.get .verify_negative_samples), (.random_state, b.get .random_state)])

/-- `implicit/gpu/bpr.py:48-57`. -/
def gpuBprSig : PySig where
  params := [(.factors, some (.num 100)), (.learning_rate, some (.num (1 / 100))),
    (.regularization, some (.num (1 / 100))), (.dtype, some .float32), (.iterations, some (.num 100)),
    (.verify_negative_samples, some (.bool true)), (.random_state, some .none)]
  kwOnly := []
  varArgs := false
  varKw := false

/-- `implicit/gpu/bpr.py:48-67`: `dtype` is accepted and not stored. -/
def newGpuBpr (env : FactoryEnv) (c : Call PName ArgVal) : Except Err PyModel := do
  let b ← pyBind gpuBprSig c
  if env.hasCuda = false then throw .valueError
  pure (.factor .gpuBpr [(.factors, b.get .factors), (.learning_rate, b.get .learning_rate),
    (.iterations, b.get .iterations), (.regularization, b.get .regularization),
    (.verify_negative_samples, b.get .verify_negative_samples), (.random_state, b.get .random_state)])

/-- `implicit/cpu/lmf.pyx:97-99`. -/
def cpuLmfSig : PySig where
  params := [(.factors, some (.num 30)), (.learning_rate, some (.num 1)), (.regularization, some (.num (3 / 5))),
    (.dtype, some .float32), (.iterations, some (.num 30)), (.neg_prop, some (.num 30)),
    (.num_threads, some (.num 0)), (.random_state, some .none)]
  kwOnly := []
  varArgs := false
  varKw := false

/-- `implicit/cpu/lmf.pyx:97-108`. -/
def newCpuLmf (env : FactoryEnv) (c : Call PName ArgVal) : Except Err PyModel := do
  let b ← pyBind cpuLmfSig c
  let dtype ← env.npDtype (b.get .dtype)
  pure (.factor .cpuLmf [(.num_threads, b.get .num_threads), (.factors, b.get .factors),
    (.learning_rate, b.get .learning_rate), (.iterations, b.get .iterations),
    (.regularization, b.get .regularization), (.dtype, dtype), (.neg_prop, b.get .neg_prop),
    (.random_state, b.get .random_state)])

/-! ## Factories -/

/-- `implicit/als.py:7-19`. -/
def alsFactorySig (env : FactoryEnv) : PySig where
  params := [(.factors, some (.num 100)), (.regularization, some (.num (1 / 100))), (.alpha, some (.num 1)),
    (.dtype, some .float32), (.use_native, some (.bool true)), (.use_cg, some (.bool true)),
    (.use_gpu, some (.bool env.hasCuda)), (.iterations, some (.num 15)),
    (.calculate_training_loss, some (.bool false)), (.num_threads, some (.num 0)), (.random_state, some .none)]
  kwOnly := []
  varArgs := false
  varKw := false

/-- `implicit/als.py:7-80`, `implicit.als.AlternatingLeastSquares`. -/
def alsFactory (env : FactoryEnv) (c : Call PName ArgVal) : Except Err PyModel := do
  let b ← pyBind (alsFactorySig env) c
  if truthyVal env (b.get .use_gpu) then
    newGpuAls env ⟨[b.get .factors, b.get .regularization, b.get .alpha],
      [(.dtype, b.get .dtype), (.iterations, b.get .iterations),
        (.calculate_training_loss, b.get .calculate_training_loss), (.random_state, b.get .random_state)]⟩
  else
    newCpuAls env ⟨[b.get .factors, b.get .regularization, b.get .alpha, b.get .dtype, b.get .use_native,
      b.get .use_cg, b.get .iterations, b.get .calculate_training_loss, b.get .num_threads, b.get .random_state], []⟩

/-- `implicit/bpr.py:7-17`. -/
def bprFactorySig (env : FactoryEnv) : PySig where
  params := [(.factors, some (.num 100)), (.learning_rate, some (.num (1 / 100))),
    (.regularization, some (.num (1 / 100))), (.dtype, some .float32), (.iterations, some (.num 100)),
    (.use_gpu, some (.bool env.hasCuda)), (.num_threads, some (.num 0)),
    (.verify_negative_samples, some (.bool true)), (.random_state, some .none)]
  kwOnly := []
  varArgs := false
  varKw := false

/-- `implicit/bpr.py:7-72`, `implicit.bpr.BayesianPersonalizedRanking`. -/
def bprFactory (env : FactoryEnv) (c : Call PName ArgVal) : Except Err PyModel := do
  let b ← pyBind (bprFactorySig env) c
  if truthyVal env (b.get .use_gpu) then
    newGpuBpr env ⟨[b.get .factors, b.get .learning_rate, b.get .regularization],
      [(.iterations, b.get .iterations), (.verify_negative_samples, b.get .verify_negative_samples),
        (.random_state, b.get .random_state)]⟩
  else
    newCpuBpr env ⟨[b.get .factors, b.get .learning_rate, b.get .regularization],
      [(.dtype, b.get .dtype), (.num_threads, b.get .num_threads), (.iterations, b.get .iterations),
        (.verify_negative_samples, b.get .verify_negative_samples), (.random_state, b.get .random_state)]⟩

/-- `implicit/lmf.py:6-16`. -/
def lmfFactorySig : PySig where
  params := [(.factors, some (.num 30)), (.learning_rate, some (.num 1)), (.regularization, some (.num (3 / 5))),
    (.dtype, some .float32), (.iterations, some (.num 30)), (.neg_prop, some (.num 30)),
    (.use_gpu, some (.bool false)), (.num_threads, some (.num 0)), (.random_state, some .none)]
  kwOnly := []
  varArgs := false
  varKw := false

/-- `implicit/lmf.py:6-67`, `implicit.lmf.LogisticMatrixFactorization`. -/
def lmfFactory (env : FactoryEnv) (c : Call PName ArgVal) : Except Err PyModel := do
  let b ← pyBind lmfFactorySig c
  if truthyVal env (b.get .use_gpu) then throw .notImplemented
  else
    newCpuLmf env ⟨[b.get .factors, b.get .learning_rate, b.get .regularization],
      [(.dtype, b.get .dtype), (.iterations, b.get .iterations), (.neg_prop, b.get .neg_prop),
        (.num_threads, b.get .num_threads), (.random_state, b.get .random_state)]⟩

/-- The inner model of the three approximate factories (`implicit/approximate_als.py:23,43,65`):
`implicit.als.AlternatingLeastSquares(*args, use_gpu=use_gpu, **kwargs)`. -/
def innerAls (env : FactoryEnv) (b : BoundArgs) : Except Err PyModel :=
  alsFactory env ⟨b.extraPos, (.use_gpu, b.get .use_gpu) :: b.extraKw⟩

/-- `implicit/ann/annoy.py:46-53`, `AnnoyModel.__init__`, without the model. -/
def annoySig : PySig where
  params := [(.approximate_similar_items, some (.bool true)), (.approximate_recommend, some (.bool true)),
    (.n_trees, some (.num 50)), (.search_k, some (.num (-1)))]
  kwOnly := []
  varArgs := false
  varKw := false

/-- `implicit/ann/annoy.py:46-65`. -/
def newAnnoy (inner : PyModel) (c : Call PName ArgVal) : Except Err PyModel := do
  let b ← pyBind annoySig c
  pure (.ann .annoy [(.approximate_similar_items, b.get .approximate_similar_items),
    (.approximate_recommend, b.get .approximate_recommend), (.n_trees, b.get .n_trees),
    (.search_k, b.get .search_k)] inner)

/-- `implicit/approximate_als.py:34-42`. -/
def annoyFactorySig (env : FactoryEnv) : PySig where
  params := []
  kwOnly := [(.approximate_similar_items, .bool true), (.approximate_recommend, .bool true), (.n_trees, .num 50),
    (.search_k, .num (-1)), (.use_gpu, .bool env.hasCuda)]
  varArgs := true
  varKw := true

/-- `implicit/approximate_als.py:34-52`, `AnnoyAlternatingLeastSquares`. -/
def annoyFactory (env : FactoryEnv) (c : Call PName ArgVal) : Except Err PyModel := do
  let b ← pyBind (annoyFactorySig env) c
  let inner ← innerAls env b
  newAnnoy inner ⟨[], [(.approximate_similar_items, b.get .approximate_similar_items),
    (.approximate_recommend, b.get .approximate_recommend), (.n_trees, b.get .n_trees),
    (.search_k, b.get .search_k)]⟩

/-- `implicit/ann/nmslib.py:46-55`, `NMSLibModel.__init__`, without the model; surplus keywords are accepted. -/
def nmslibSig : PySig where
  params := [(.approximate_similar_items, some (.bool true)), (.approximate_recommend, some (.bool true)),
    (.method, some (.str "hnsw")), (.index_params, some .none), (.query_params, some .none)]
  kwOnly := []
  varArgs := false
  varKw := true

/-- `implicit/ann/nmslib.py:46-73`. -/
def newNmslib (inner : PyModel) (c : Call PName ArgVal) : Except Err PyModel := do
  let b ← pyBind nmslibSig c
  let index := if b.get .index_params = .none then
    .dict [("M", 16), ("post", 0), ("efConstruction", 400)] else b.get .index_params
  let query := if b.get .query_params = .none then .dict [("ef", 90)] else b.get .query_params
  pure (.ann .nmslib [(.approximate_similar_items, b.get .approximate_similar_items),
    (.approximate_recommend, b.get .approximate_recommend), (.method, b.get .method), (.index_params, index),
    (.query_params, query)] inner)

/-- `implicit/approximate_als.py:9-18`. -/
def nmslibFactorySig (env : FactoryEnv) : PySig where
  params := []
  kwOnly := [(.approximate_similar_items, .bool true), (.approximate_recommend, .bool true),
    (.method, .str "hnsw"), (.index_params, .none), (.query_params, .none), (.use_gpu, .bool env.hasCuda)]
  varArgs := true
  varKw := true

/-- `implicit/approximate_als.py:9-31`, `NMSLibAlternatingLeastSquares`. -/
def nmslibFactory (env : FactoryEnv) (c : Call PName ArgVal) : Except Err PyModel := do
  let b ← pyBind (nmslibFactorySig env) c
  let inner ← innerAls env b
  newNmslib inner ⟨[], [(.approximate_similar_items, b.get .approximate_similar_items),
    (.approximate_recommend, b.get .approximate_recommend), (.method, b.get .method),
    (.index_params, b.get .index_params), (.query_params, b.get .query_params)]⟩

/-- `implicit/ann/faiss.py:51-59`, `FaissModel.__init__`, without the model. -/
def faissSig (env : FactoryEnv) : PySig where
  params := [(.approximate_similar_items, some (.bool true)), (.approximate_recommend, some (.bool true)),
    (.nlist, some (.num 400)), (.nprobe, some (.num 20)), (.use_gpu, some (.bool env.hasCuda))]
  kwOnly := []
  varArgs := false
  varKw := false

/-- `implicit/ann/faiss.py:51-74`. -/
def newFaiss (env : FactoryEnv) (inner : PyModel) (c : Call PName ArgVal) : Except Err PyModel := do
  let b ← pyBind (faissSig env) c
  pure (.ann .faiss [(.approximate_similar_items, b.get .approximate_similar_items),
    (.approximate_recommend, b.get .approximate_recommend), (.nlist, b.get .nlist), (.nprobe, b.get .nprobe),
    (.use_gpu, b.get .use_gpu)] inner)

/-- `implicit/approximate_als.py:55-63`. -/
def faissFactorySig (env : FactoryEnv) : PySig where
  params := []
  kwOnly := [(.approximate_similar_items, .bool true), (.approximate_recommend, .bool true), (.nlist, .num 400),
    (.nprobe, .num 20), (.use_gpu, .bool env.hasCuda)]
  varArgs := true
  varKw := true

/-- `implicit/approximate_als.py:55-76`, `FaissAlternatingLeastSquares`. -/
def faissFactory (env : FactoryEnv) (c : Call PName ArgVal) : Except Err PyModel := do
  let b ← pyBind (faissFactorySig env) c
  let inner ← innerAls env b
  newFaiss env inner ⟨[], [(.approximate_similar_items, b.get .approximate_similar_items),
    (.approximate_recommend, b.get .approximate_recommend), (.nlist, b.get .nlist), (.nprobe, b.get .nprobe),
    (.use_gpu, b.get .use_gpu)]⟩

end Implicit
