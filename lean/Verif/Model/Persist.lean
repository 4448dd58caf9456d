import Verif.Model.Basic

/-!
# Model: saving, loading, pickling and moving models between CPU and GPU

Python objects are maps from attribute names to values (`__dict__`).  numpy's `savez`, `load`,
`asanyarray` and `ndarray.item` are library behaviour and part of the trusted base; they are modelled
only as far as the code here relies on them:

* `savez(path)` appends `.npz` to a path (a `str` or a `pathlib.Path`) that lacks it, `load(path)` does not;
* a value that is no number, boolean, text or numeric array becomes a pickled object array, which
  `load(allow_pickle=False)` refuses with `ValueError`; so does an integer outside `[-2^63, 2^64)`.

Not modelled: open file objects as targets, `bytes` paths, numpy integer/float scalar types (identified with
the python numbers), NaN.
-/

namespace Implicit

/-- Attribute names. -/
inductive Attr where
  | userFactors | itemFactors
  | regularization | factors | numThreads | iterations | dtype | randomState
  | useNative | useCg | cgSteps | calculateTrainingLoss | alpha | fitCallback
  | learningRate | verifyNegativeSamples | negProp
  | K | K1 | B | similarity | scorer
  deriving DecidableEq, Repr

/-- A numpy array: shape, name of the element type, memory order, and the elements in memory order. -/
structure NdArray (R : Type) where
  shape : List Nat
  dtype : String
  fortran : Bool
  data : List R
  deriving DecidableEq, Repr

/-- A `scipy.sparse.csr_matrix`. -/
structure CsrArrays (R : Type) where
  rows : Nat
  cols : Nat
  indptr : List Nat
  indices : List Nat
  data : List R
  deriving DecidableEq, Repr

/-- Python values found in attributes.  `object` is any other object: a random generator, a callback, a
native scorer built from a matrix (`scorerOf`). -/
inductive PyVal (R : Type) where
  | none
  | int (n : Int)
  | float (x : R)
  | bool (b : Bool)
  | dtype (name : String)
  | array (a : NdArray R)
  | array0 (n : Int)
  | device (a : NdArray R)
  | csr (m : CsrArrays R)
  | scorerOf (m : CsrArrays R)
  | object (id : Nat)
  deriving DecidableEq, Repr

/-- The `__dict__` of a python object. -/
abbrev PyObj (R : Type) := Attr → Option (PyVal R)

/-- `setattr` -/
def setAttr {R : Type} (o : PyObj R) (k : Attr) (v : PyVal R) : PyObj R :=
  fun k' => if k' = k then some v else o k'

/-- Members of an `.npz` archive. -/
inductive NpVal (R : Type) where
  | int (n : Int)
  | float (x : R)
  | bool (b : Bool)
  | text (s : String)
  | array (a : NdArray R)
  | pickled
  deriving DecidableEq, Repr

/-- `np.asanyarray(v)` as done by `np.savez`. -/
def asAnyArray {R : Type} : PyVal R → NpVal R
  | .int n => if -2 ^ 63 ≤ n ∧ n < 2 ^ 64 then .int n else .pickled
  | .float x => .float x
  | .bool b => .bool b
  | .array a => .array a
  | .array0 n => .int n
  | _ => .pickled

/-! ## Paths and files -/

/-- A path given as `str` or as `pathlib.Path`. -/
inductive Target where
  | str (s : List Char)
  | pathlib (s : List Char)
  deriving DecidableEq, Repr

/-- `.npz` -/
def npzSuffix : List Char := ['.', 'n', 'p', 'z']

/-- The file written by `np.savez` (library). -/
def savezName : Target → List Char
  | .str s => if npzSuffix.isSuffixOf s then s else s ++ npzSuffix
  | .pathlib s => if npzSuffix.isSuffixOf s then s else s ++ npzSuffix

/-- The file opened by `load`: recommender_base.py:191-193, nearest_neighbours.py:172-175; the suffix is
appended to a `str` only. -/
def loadName : Target → List Char
  | .str s => if npzSuffix.isSuffixOf s then s else s ++ npzSuffix
  | .pathlib s => s

/-- File contents by name; the archive is generic in the class. -/
abbrev Disk (A : Type) := List Char → Option A

/-- Writing a file. -/
def Disk.write {A : Type} (d : Disk A) (name : List Char) (a : A) : Disk A :=
  fun n => if n = name then some a else d n

/-! ## Matrix factorization models on the CPU -/

/-- cpu/als.py:458-472: the keys of `args`. -/
def alsKeys : List Attr :=
  [.userFactors, .itemFactors, .regularization, .factors, .numThreads, .iterations, .useNative, .useCg,
    .cgSteps, .calculateTrainingLoss, .dtype, .randomState, .alpha]

/-- cpu/bpr.pyx:229-239 -/
def bprKeys : List Attr :=
  [.userFactors, .itemFactors, .regularization, .factors, .learningRate, .verifyNegativeSamples,
    .numThreads, .iterations, .dtype, .randomState]

/-- cpu/lmf.pyx:202-212 -/
def lmfKeys : List Attr :=
  [.userFactors, .itemFactors, .regularization, .factors, .learningRate, .negProp, .numThreads,
    .iterations, .dtype, .randomState]

variable {R : Type}

/-- One entry of `args`: `self.dtype.name` for the data type, the attribute itself otherwise. `none` is a
`None` value, filtered out. -/
def saveEntry (o : PyObj R) (k : Attr) : Except Err (Option (Attr × NpVal R)) :=
  match o k with
  | .none => .error .attributeError
  | some v =>
    if k = .dtype then
      match v with
      | .dtype name => .ok (some (k, .text name))
      | _ => .error .attributeError
    else
      match v with
      | .none => .ok Option.none
      | v => .ok (some (k, asAnyArray v))

/-- `save`: cpu/als.py:457-476, cpu/bpr.pyx:228-244, cpu/lmf.pyx:201-217. -/
def mfSave (keys : List Attr) (o : PyObj R) (target : Target) (disk : Disk (List (Attr × NpVal R))) :
    Except Err (Disk (List (Attr × NpVal R))) := do
  let args ← keys.mapM (saveEntry o)
  .ok (disk.write (savezName target) (args.filterMap id))

/-- recommender_base.py:195-200: one member of the archive. -/
def loadEntry (o : PyObj R) (kv : Attr × NpVal R) : Except Err (PyObj R) :=
  match kv.2 with
  | .pickled => .error .valueError
  | .text s => if kv.1 = .dtype then .ok (setAttr o kv.1 (.dtype s)) else .error .typeError
  | .int n => if kv.1 = .dtype then .error .typeError else .ok (setAttr o kv.1 (.int n))
  | .float x => if kv.1 = .dtype then .error .typeError else .ok (setAttr o kv.1 (.float x))
  | .bool b => if kv.1 = .dtype then .error .typeError else .ok (setAttr o kv.1 (.bool b))
  | .array a => if kv.1 = .dtype then .error .typeError else .ok (setAttr o kv.1 (.array a))

/-- `RecommenderBase.load`: recommender_base.py:172-201; `init` is the object made by `cls()`. -/
def mfLoad (init : PyObj R) (target : Target) (disk : Disk (List (Attr × NpVal R))) :
    Except Err (PyObj R) :=
  match disk (loadName target) with
  | .none => .error .fileNotFound
  | some entries => entries.foldlM loadEntry init

/-- Attributes set from a list. -/
def objOf (l : List (Attr × PyVal R)) : PyObj R :=
  l.foldl (fun o kv => setAttr o kv.1 kv.2) fun _ => Option.none

/-- The float constants of the constructors are parameters (0.01 and 1.0 have no exact binary value). -/
structure Consts (R : Type) where
  c001 : R
  c1 : R
  c06 : R
  c12 : R
  c075 : R

/-- `AlternatingLeastSquares(factors, regularization, alpha, dtype, use_native, use_cg, iterations,
calculate_training_loss, num_threads, random_state)`: cpu/als.py:62-95.  (The caches and norms start as `None`
and are not part of the persistent state.) -/
def alsNew (factors regularization alpha dtype useNative useCg iterations loss numThreads
    randomState : PyVal R) : PyObj R :=
  objOf [(.itemFactors, .none), (.userFactors, .none), (.numThreads, numThreads), (.factors, factors),
    (.regularization, regularization), (.alpha, alpha), (.dtype, dtype), (.useNative, useNative),
    (.useCg, useCg), (.iterations, iterations), (.calculateTrainingLoss, loss), (.fitCallback, .none),
    (.cgSteps, .int 3), (.randomState, randomState)]

/-- `AlternatingLeastSquares()` -/
def alsDefault (c : Consts R) : PyObj R :=
  alsNew (.int 100) (.float c.c001) (.float c.c1) (.dtype "float32") (.bool true) (.bool true) (.int 15)
    (.bool false) (.int 0) .none

/-- `BayesianPersonalizedRanking(factors, learning_rate, regularization, dtype, iterations, num_threads,
verify_negative_samples, random_state)`: cpu/bpr.pyx:107-118. -/
def bprNew (factors learningRate regularization dtype iterations numThreads verify randomState : PyVal R) :
    PyObj R :=
  objOf [(.itemFactors, .none), (.userFactors, .none), (.numThreads, numThreads), (.factors, factors),
    (.learningRate, learningRate), (.iterations, iterations), (.regularization, regularization),
    (.dtype, dtype), (.verifyNegativeSamples, verify), (.randomState, randomState)]

/-- `BayesianPersonalizedRanking()` -/
def bprDefault (c : Consts R) : PyObj R :=
  bprNew (.int 100) (.float c.c001) (.float c.c001) (.dtype "float32") (.int 100) (.int 0) (.bool true)
    .none

/-- `LogisticMatrixFactorization()`: cpu/lmf.pyx:96-108. -/
def lmfDefault (c : Consts R) : PyObj R :=
  objOf [(.itemFactors, .none), (.userFactors, .none), (.numThreads, .int 0), (.factors, .int 30),
    (.learningRate, .float c.c1), (.iterations, .int 30), (.regularization, .float c.c06),
    (.dtype, .dtype "float32"), (.negProp, .int 30), (.randomState, .none)]

/-! ## Item-item models -/

/-- An `.npz` archive of an item-item model. -/
structure KnnArchive (R : Type) where
  K : Int
  matrix : Option (CsrArrays R)

/-- nearest_neighbours.py:160-167 -/
def knnSave (o : PyObj R) (target : Target) (disk : Disk (KnnArchive R)) :
    Except Err (Disk (KnnArchive R)) :=
  match o .K, o .similarity with
  | some (.int n), some .none => .ok (disk.write (savezName target) ⟨n, .none⟩)
  | some (.int n), some (.csr m) => .ok (disk.write (savezName target) ⟨n, some m⟩)
  | some (.array0 n), some .none => .ok (disk.write (savezName target) ⟨n, .none⟩)
  | some (.array0 n), some (.csr m) => .ok (disk.write (savezName target) ⟨n, some m⟩)
  | _, _ => .error .attributeError

/-- nearest_neighbours.py:169-184: `K` comes back as a 0-dimensional array. -/
def knnLoad (init : PyObj R) (target : Target) (disk : Disk (KnnArchive R)) : Except Err (PyObj R) :=
  match disk (loadName target) with
  | .none => .error .fileNotFound
  | some ar =>
    let o := match ar.matrix with
      | .none => init
      | some m => setAttr (setAttr init .similarity (.csr m)) .scorer (.scorerOf m)
    .ok (setAttr o .K (.array0 ar.K))

/-- `ItemItemRecommender(K, num_threads)`: nearest_neighbours.py:24-28 (also Cosine and TF-IDF). -/
def knnNew (K numThreads : PyVal R) : PyObj R :=
  objOf [(.similarity, .none), (.K, K), (.numThreads, numThreads), (.scorer, .none)]

/-- `BM25Recommender(K, K1, B, num_threads)`: nearest_neighbours.py:208-211. -/
def bm25New (K K1 B numThreads : PyVal R) : PyObj R :=
  setAttr (setAttr (knnNew K numThreads) .K1 K1) .B B

/-- nearest_neighbours.py:147-151: `__getstate__` drops the scorer (`KeyError` without one). -/
def knnGetState (o : PyObj R) : Except Err (PyObj R) :=
  match o .scorer with
  | .none => .error .attributeError
  | some _ => .ok fun k => if k = .scorer then Option.none else o k

/-- nearest_neighbours.py:153-158: `__setstate__` rebuilds it. -/
def knnSetState (state : PyObj R) : Except Err (PyObj R) :=
  match state .similarity with
  | .none => .error .attributeError
  | some (.csr m) => .ok (setAttr state .scorer (.scorerOf m))
  | some .none => .ok (setAttr state .scorer .none)
  | some _ => .error .typeError

/-! ## GPU models -/

/-- `implicit.gpu.Matrix(X)` for a host array: gpu/_cuda.pyx:83-112, gpu/matrix.cu:80-97.  The elements are
copied in *memory order*; the device matrix is row-major. `&temp[0, 0]` raises `IndexError` on an empty
array. -/
def toDevice : PyVal R → Except Err (PyVal R)
  | .array a =>
    match a.shape with
    | [rows, cols] =>
      if a.dtype = "float32" ∨ a.dtype = "float16" then
        if rows = 0 ∨ cols = 0 then .error .indexError
        else .ok (.device ⟨[rows, cols], a.dtype, false, a.data⟩)
      else .error .valueError
    | _ => .error .valueError
  | _ => .error .attributeError

/-- `Matrix.to_numpy`: gpu/_cuda.pyx:182-197. -/
def toNumpy : PyVal R → Except Err (PyVal R)
  | .device a => .ok (.array ⟨a.shape, a.dtype, false, a.data⟩)
  | _ => .error .attributeError

/-- `if x is not None: ret.x = f(x)` -/
def convertAttr (f : PyVal R → Except Err (PyVal R)) (o ret : PyObj R) (k : Attr) : Except Err (PyObj R) :=
  match o k with
  | .none => .error .attributeError
  | some .none => .ok (setAttr ret k .none)
  | some v => do .ok (setAttr ret k (← f v))

/-- Read an attribute. -/
def getAttr (o : PyObj R) (k : Attr) : Except Err (PyVal R) :=
  match o k with
  | .none => .error .attributeError
  | some v => .ok v

/-- `implicit.gpu.als.AlternatingLeastSquares(...)`: gpu/als.py:48-80 (solver and caches omitted). -/
def gpuAlsNew (factors regularization alpha dtype iterations loss randomState : PyVal R) : PyObj R :=
  objOf [(.itemFactors, .none), (.userFactors, .none), (.factors, factors),
    (.regularization, regularization), (.alpha, alpha), (.dtype, dtype), (.iterations, iterations),
    (.calculateTrainingLoss, loss), (.fitCallback, .none), (.randomState, randomState), (.cgSteps, .int 3)]

/-- `implicit.gpu.als.AlternatingLeastSquares()` -/
def gpuAlsDefault (c : Consts R) : PyObj R :=
  gpuAlsNew (.int 64) (.float c.c001) (.float c.c1) (.dtype "float32") (.int 15) (.bool false) .none

/-- `implicit.gpu.bpr.BayesianPersonalizedRanking(...)`: gpu/bpr.py:48-68 (`dtype` is ignored). -/
def gpuBprNew (factors learningRate regularization iterations verify randomState : PyVal R) : PyObj R :=
  objOf [(.itemFactors, .none), (.userFactors, .none), (.factors, factors), (.learningRate, learningRate),
    (.iterations, iterations), (.regularization, regularization), (.verifyNegativeSamples, verify),
    (.randomState, randomState)]

/-- `implicit.gpu.bpr.BayesianPersonalizedRanking()` -/
def gpuBprDefault (c : Consts R) : PyObj R :=
  gpuBprNew (.int 100) (.float c.c001) (.float c.c001) (.int 100) (.bool true) .none

/-- cpu/als.py:438-455 -/
def alsToGpu (o : PyObj R) : Except Err (PyObj R) := do
  let ret := gpuAlsNew (← getAttr o .factors) (← getAttr o .regularization) (← getAttr o .alpha)
    (← getAttr o .dtype) (← getAttr o .iterations) (← getAttr o .calculateTrainingLoss)
    (← getAttr o .randomState)
  let ret ← convertAttr toDevice o ret .userFactors
  convertAttr toDevice o ret .itemFactors

/-- gpu/als.py:296-308 -/
def alsToCpu (o : PyObj R) : Except Err (PyObj R) := do
  let ret := alsNew (← getAttr o .factors) (← getAttr o .regularization) (← getAttr o .alpha)
    (← getAttr o .dtype) (.bool true) (.bool true) (← getAttr o .iterations)
    (← getAttr o .calculateTrainingLoss) (.int 0) (← getAttr o .randomState)
  let ret ← convertAttr toNumpy o ret .userFactors
  convertAttr toNumpy o ret .itemFactors

/-- cpu/bpr.pyx:209-226 -/
def bprToGpu (o : PyObj R) : Except Err (PyObj R) := do
  let ret := gpuBprNew (← getAttr o .factors) (← getAttr o .learningRate) (← getAttr o .regularization)
    (← getAttr o .iterations) (← getAttr o .verifyNegativeSamples) (← getAttr o .randomState)
  let ret ← convertAttr toDevice o ret .userFactors
  convertAttr toDevice o ret .itemFactors

/-- gpu/bpr.py:159-171 -/
def bprToCpu (o : PyObj R) : Except Err (PyObj R) := do
  let ret := bprNew (← getAttr o .factors) (← getAttr o .learningRate) (← getAttr o .regularization)
    (.dtype "float32") (← getAttr o .iterations) (.int 0) (← getAttr o .verifyNegativeSamples)
    (← getAttr o .randomState)
  let ret ← convertAttr toNumpy o ret .userFactors
  convertAttr toNumpy o ret .itemFactors

/-- `save` of the GPU models: gpu/matrix_factorization_base.py:214-215. -/
def gpuSave (toCpu : PyObj R → Except Err (PyObj R)) (keys : List Attr) (o : PyObj R) (target : Target)
    (disk : Disk (List (Attr × NpVal R))) : Except Err (Disk (List (Attr × NpVal R))) := do
  mfSave keys (← toCpu o) target disk

/-- `load` of the GPU models: gpu/matrix_factorization_base.py:210-212, `cls().to_cpu().load(file).to_gpu()`;
`load` is a class method, so the object it is looked up on only supplies the class. -/
def gpuLoad (default : PyObj R) (toCpu toGpu : PyObj R → Except Err (PyObj R)) (cpuDefault : PyObj R)
    (target : Target) (disk : Disk (List (Attr × NpVal R))) : Except Err (PyObj R) := do
  let _ ← toCpu default
  toGpu (← mfLoad cpuDefault target disk)

/-- gpu/matrix_factorization_base.py:217-224: `__getstate__` (the caches are not modelled here). -/
def gpuGetState (o : PyObj R) : Except Err (PyObj R) := do
  let s ← convertAttr toNumpy o o .itemFactors
  convertAttr toNumpy s s .userFactors

/-- gpu/matrix_factorization_base.py:226-231: `__setstate__`. -/
def gpuSetState (s : PyObj R) : Except Err (PyObj R) := do
  let o ← convertAttr toDevice s s .itemFactors
  convertAttr toDevice o o .userFactors

end Implicit
