import Verif.Model.Basic
import Mathlib.Order.Basic
/-!
# Element types: what the calls do with the types of values and indices

Only the types of arrays are followed here, not their contents.  numpy: the result of an operation on two float arrays has
the larger of the two types; a python number does not change the type of a float array.  Cython: an argument declared
`floating[:, :]` accepts float32 and float64, and all arguments declared so must have one type; `float[:]`, `double[:]` and
`int[:]` accept exactly float32, float64 and int32; `integral[:]` accepts int32 and int64.
-/

namespace Implicit

/-- Float types of numpy. -/
inductive FType where
  | f16 | f32 | f64
  deriving DecidableEq, Repr

def FType.bits : FType → Nat
  | .f16 => 16
  | .f32 => 32
  | .f64 => 64

/-- `np.promote_types` on float types. -/
def FType.max (a b : FType) : FType := if a.bits < b.bits then b else a

/-- Types of the values of a sparse matrix. -/
inductive DType where
  | bool
  | int (signed : Bool) (bytes : Nat)
  | float (t : FType)
  deriving DecidableEq, Repr

/-- Types of the index arrays of a sparse matrix (both have the same type). -/
inductive IType where
  | i32 | i64
  deriving DecidableEq, Repr

/-- The types of a sparse matrix. -/
structure MatT where
  data : DType
  index : IType
  deriving DecidableEq, Repr

/-- `alpha`: a python number, or a numpy scalar. -/
inductive ScalarT where
  | python
  | numpy (t : FType)
  deriving DecidableEq, Repr

/-- `np.promote_types` of an integer type and a float type. -/
def promoteInt (bytes : Nat) (t : FType) : FType :=
  t.max (if bytes ≤ 1 then .f16 else if bytes = 2 then .f32 else .f64)

/-- The type of `scalar * matrix` (`scipy.sparse`, `upcast_scalar`).  `nep50`: the promotion rules of numpy 2, where numpy
scalars count with their type; before, they did not change the type of a float array. -/
def scaleT (nep50 : Bool) (a : ScalarT) (m : MatT) : MatT :=
  match a, m.data with
  | .python, .float t => ⟨.float t, m.index⟩
  | .python, _ => ⟨.float .f64, m.index⟩
  | .numpy s, .float t => ⟨.float (if nep50 then t.max s else t), m.index⟩
  | .numpy s, .int _ b => ⟨.float (promoteInt b s), m.index⟩
  | .numpy s, .bool => ⟨.float s, m.index⟩

/-- `M.astype(np.float32)`: every number can be converted. -/
def toF32 (m : MatT) : MatT := ⟨.float .f32, m.index⟩

/-- Dispatch of a function with a `floating` argument: no version for float16. -/
def fusedFloating : FType → Except Err Unit
  | .f16 => .error .typeError
  | _ => .ok ()

/-- An argument or variable of a given buffer type. -/
def bufferT (want got : FType) : Except Err Unit := if want = got then .ok () else .error .valueError

/-- `float[:]`, `double[:]` on the values of a matrix. -/
def dataT (want : FType) (d : DType) : Except Err Unit := if d = .float want then .ok () else .error .valueError

/-- `int[:]` on the index arrays. -/
def int32T (i : IType) : Except Err Unit := if i = .i32 then .ok () else .error .valueError

/-! ## Factor models on the CPU -/

/-- The types a factor model holds: the parameter `dtype`, the factors, the cached norms and Gram matrices. -/
structure TModel where
  dtype : FType
  user : Option FType
  item : Option FType
  userNorms : Option FType
  itemNorms : Option FType
  yty : Option FType
  xtx : Option FType
  deriving DecidableEq, Repr

/-- A new model. -/
def TModel.new (dtype : FType) : TModel := ⟨dtype, none, none, none, none, none, none⟩

/-- `self.user_factors` before a fit is `None`, on which indexing raises `TypeError` (and `.T` `AttributeError`). -/
def fitted (e : Err) : Option FType → Except Err FType
  | none => .error e
  | some t => .ok t

/-- `Generator.random(size, dtype)`: float32 and float64 (`TypeError` otherwise). -/
def generatorRandom : FType → Except Err FType
  | .f16 => .error .typeError
  | t => .ok t

/-- Factors created if there are none. -/
def initT (fresh : Except Err FType) : Option FType → Except Err FType
  | some t => .ok t
  | none => fresh

/-- `_check_als_dtype` (`implicit/cpu/_als.pyx:60-64`). -/
def checkAlsDtype : FType → Except Err Unit
  | .f16 => .error .valueError
  | _ => .ok ()

/-- `_least_squares` (`implicit/cpu/_als.pyx:75-85`) from its types: `X` decides the version; `Y`, `data` and
`YtY + regularization * np.eye(factors, dtype)` must fit. -/
def leastSquaresT (yty x y : FType) (data : DType) : Except Err Unit := do
  fusedFloating x
  dataT .f32 data
  bufferT x y
  bufferT x (yty.max x)

/-- The options of `AlternatingLeastSquares` that matter here. -/
structure AlsOptions where
  native : Bool
  alpha : Option ScalarT
  loss : Bool
  iterations : Nat

/-- One call of the solver chosen by `self.solver` (`implicit/cpu/als.py:410-415`).  The native solvers check the types and
convert the data (`implicit/cpu/_als.pyx:67-72,144-148`).  The python solvers (`implicit/cpu/als.py:476-540`) assign rows to
`X`, which converts; in-place operations convert floats to the smaller type. -/
def solverT (native : Bool) (x y : FType) (c : MatT) : Except Err Unit :=
  if native then do
    checkAlsDtype x
    checkAlsDtype y
    leastSquaresT y x y (toF32 c).data
  else .ok ()

/-- `fit` (`implicit/cpu/als.py:97-203`). -/
def alsFitT (nep50 : Bool) (o : AlsOptions) (m : TModel) (userItems : MatT) : Except Err TModel := do
  let c := if userItems.data ≠ .float .f32 then toF32 userItems else userItems
  let c := match o.alpha with
    | some a => scaleT nep50 a c
    | none => c
  let user ← initT (generatorRandom m.dtype) m.user
  let item ← initT (generatorRandom m.dtype) m.item
  if o.iterations ≠ 0 then
    solverT o.native user item c
    solverT o.native item user c
    if o.loss then
      -- `calculate_loss` (`implicit/cpu/_als.pyx:251-275`)
      fusedFloating user
      dataT .f32 (toF32 c).data
      bufferT user item
  return { m with user := some user, item := some item, userNorms := none, itemNorms := none, yty := none, xtx := none }

/-- `YtY`, `XtX` (`implicit/cpu/als.py:417-429`): the cached type, or that of the factors. -/
def gramT (cache factors : Option FType) : Except Err FType :=
  match cache with
  | some t => .ok t
  | none => fitted .attributeError factors

/-- `recalculate_user` (`implicit/cpu/als.py:204-242`): `np.zeros(..., dtype=self.dtype)` and `_least_squares` directly. -/
def recalcUserT (nep50 : Bool) (o : AlsOptions) (m : TModel) (userItems : MatT) : Except Err (FType × TModel) := do
  let c := match o.alpha with
    | some a => scaleT nep50 a userItems
    | none => userItems
  let yty ← gramT m.yty m.item
  let item ← fitted .typeError m.item
  leastSquaresT yty m.dtype item (toF32 c).data
  return (m.dtype, { m with yty := some yty })

/-- `recalculate_item` (`implicit/cpu/als.py:244-275`). -/
def recalcItemT (nep50 : Bool) (o : AlsOptions) (m : TModel) (itemUsers : MatT) : Except Err (FType × TModel) := do
  let c := match o.alpha with
    | some a => scaleT nep50 a itemUsers
    | none => itemUsers
  let xtx ← gramT m.xtx m.user
  let user ← fitted .typeError m.user
  leastSquaresT xtx m.dtype user (toF32 c).data
  return (m.dtype, { m with xtx := some xtx })

/-- `partial_fit_users` (`implicit/cpu/als.py:277-313`); `grow`: there are new users, and the factors are concatenated with
zeros of type `self.dtype`. -/
def partialUsersT (nep50 : Bool) (o : AlsOptions) (m : TModel) (grow : Bool) (userItems : MatT) : Except Err TModel := do
  let (_, m) ← recalcUserT nep50 o m userItems
  let user ← fitted .attributeError m.user
  return { m with user := some (if grow then user.max m.dtype else user), userNorms := none, xtx := none }

/-- `partial_fit_items` (`implicit/cpu/als.py:315-351`). -/
def partialItemsT (nep50 : Bool) (o : AlsOptions) (m : TModel) (grow : Bool) (itemUsers : MatT) : Except Err TModel := do
  let (_, m) ← recalcItemT nep50 o m itemUsers
  let item ← fitted .attributeError m.item
  return { m with item := some (if grow then item.max m.dtype else item), itemNorms := none, yty := none }

/-- `topk` (`implicit/cpu/topk.pyx:15-67`) from its types: `distances` has the type of the query and decides the version;
`batch_distances` is the product, divided by the norms if there are any. -/
def topkT (items query : FType) (norms : Option FType) : Except Err FType := do
  fusedFloating query
  let product := query.max items
  let batch := match norms with
    | some n => product.max n
    | none => product
  bufferT query batch
  return query

/-- `recommend` (`implicit/cpu/matrix_factorization_base.py:34-95`): the type of the scores. -/
def recommendT (nep50 : Bool) (o : AlsOptions) (m : TModel) (recalculate : Bool) (userItems : MatT) :
    Except Err (FType × TModel) := do
  let (user, m) ← if recalculate then recalcUserT nep50 o m userItems else do
    let u ← fitted .typeError m.user
    pure (u, m)
  let item ← fitted .attributeError m.item
  let scores ← topkT item user none
  return (scores, m)

/-- `item_norms`, `user_norms` (`implicit/cpu/matrix_factorization_base.py:232-246`): `np.linalg.norm` keeps the float
type. -/
def normsT (cache factors : Option FType) : Except Err FType :=
  match cache with
  | some t => .ok t
  | none => fitted .typeError factors

/-- `similar_items` (`implicit/cpu/matrix_factorization_base.py:177-230`); `scores /= norm` keeps the type. -/
def similarItemsT (nep50 : Bool) (o : AlsOptions) (m : TModel) (recalculate : Bool) (itemUsers : MatT) :
    Except Err (FType × TModel) := do
  let (query, m) ← if recalculate then recalcItemT nep50 o m itemUsers else do
    let i ← fitted .typeError m.item
    pure (i, m)
  let norms ← normsT m.itemNorms m.item
  let item ← fitted .typeError m.item
  let scores ← topkT item query (some norms)
  return (scores, { m with itemNorms := some norms })

/-- `similar_users` (`implicit/cpu/matrix_factorization_base.py:148-173`). -/
def similarUsersT (m : TModel) : Except Err (FType × TModel) := do
  let norms ← normsT m.userNorms m.user
  let user ← fitted .typeError m.user
  let scores ← topkT user user (some norms)
  return (scores, { m with userNorms := some norms })

/-- `explain` (`implicit/cpu/als.py:353-408`): `np.eye` without `dtype` makes the system float64, whatever the factors. -/
def explainT (m : TModel) : Except Err (FType × TModel) := do
  let yty ← gramT m.yty m.item
  let item ← fitted .typeError m.item
  return ((yty.max item).max .f64, { m with yty := some yty })

/-- `BayesianPersonalizedRanking.fit` (`implicit/cpu/bpr.pyx:137-207`): `bpr_update` takes both factors as `floating`. -/
def bprFitT (iterations : Nat) (m : TModel) (_userItems : MatT) : Except Err TModel := do
  let item ← initT (generatorRandom m.dtype) m.item
  let user ← initT (generatorRandom m.dtype) m.user
  if iterations ≠ 0 then
    fusedFloating user
    bufferT user item
  return { m with user := some user, item := some item, userNorms := none, itemNorms := none }

/-- `LogisticMatrixFactorization.fit` (`implicit/cpu/lmf.pyx:128-199`): new factors are float32 whatever `dtype` is, so are
the sums of squares and the data, and `lmf_update` takes all of them as `floating`.  The cached norms stay. -/
def lmfFitT (iterations : Nat) (m : TModel) (_userItems : MatT) : Except Err TModel := do
  let item ← initT (.ok .f32) m.item
  let user ← initT (.ok .f32) m.user
  if iterations ≠ 0 then
    bufferT .f32 user
    bufferT .f32 item
  return { m with user := some user, item := some item }

/-! ## Item-item models -/

/-- The types an item-item model holds after `fit`: similarities are float64 (`implicit/_nearest_neighbours.pyx:133`). -/
structure KnnT where
  similarity : FType
  deriving DecidableEq, Repr

/-- `all_pairs_knn` (`implicit/_nearest_neighbours.pyx:114-126`): `int[:]` and `double[:]`. -/
def allPairsT (m : MatT) : Except Err KnnT := do
  int32T m.index
  dataT .f64 m.data
  return ⟨.f64⟩

/-- `normalize` (`implicit/nearest_neighbours.py:226-231`): `bincount` with weights is float64. -/
def normalizeT (m : MatT) : MatT := ⟨.float .f64, m.index⟩

/-- `np.sqrt` of an array. -/
def sqrtT : DType → FType
  | .bool => .f16
  | .int _ b => if b ≤ 1 then .f16 else if b = 2 then .f32 else .f64
  | .float t => t

/-- `tfidf_weight` (`implicit/nearest_neighbours.py:213-223`): `idf` is an array of float64. -/
def tfidfT (m : MatT) : MatT := ⟨.float ((sqrtT m.data).max .f64), m.index⟩

/-- `bm25_weight` (`implicit/nearest_neighbours.py:234-253`): again times `idf`. -/
def bm25T (m : MatT) : MatT :=
  let d := match m.data with
    | .float t => t
    | _ => .f64
  ⟨.float (d.max .f64), m.index⟩

/-- Which item-item model. -/
inductive KnnKind where
  | plain | cosine | tfidf | bm25
  deriving DecidableEq, Repr

/-- `fit` (`implicit/nearest_neighbours.py:30-42,183-210`). -/
def knnFitT (k : KnnKind) (m : MatT) : Except Err KnnT :=
  match k with
  | .plain => allPairsT m
  | .cosine => allPairsT (normalizeT m)
  | .tfidf => allPairsT (normalizeT (tfidfT m))
  | .bm25 => allPairsT (bm25T m)

/-- `recommend` for one user (`implicit/nearest_neighbours.py:44-105`, `implicit/_nearest_neighbours.pyx:61-99`): the data
decides the version, `int[:]` for the indices; scores are float64. -/
def knnRecommendT (_m : KnnT) (userItems : MatT) : Except Err FType := do
  match userItems.data with
  | .float t => fusedFloating t
  | _ => throw .typeError
  int32T userItems.index
  return .f64

/-- `recommend` for several users: `_batch_call` collects scores in an array of float32 (`implicit/utils.py:106-135`). -/
def knnRecommendBatchT (m : KnnT) (userItems : MatT) : Except Err FType := do
  let _ ← knnRecommendT m userItems
  return .f32

/-- `ranking_metrics_at_k` (`implicit/evaluation.pyx:408-430`): `int[:]` for the test matrix; the model is asked with the
rows of the training matrix. -/
def evaluateT (recommend : MatT → Except Err FType) (train test : MatT) : Except Err Unit := do
  int32T test.index
  let _ ← recommend train
  return ()

/-! ## GPU and CPU -/

/-- `Matrix.astype` (`implicit/gpu/_cuda.pyx:167-177`). -/
def gpuAstype : FType → Except Err FType
  | .f64 => .error .valueError
  | t => .ok t

/-- `Matrix(X)` for a numpy array (`implicit/gpu/_cuda.pyx:93-114`). -/
def gpuMatrixT : FType → Except Err FType
  | .f64 => .error .valueError
  | t => .ok t

/-- `fit` on the GPU (`implicit/gpu/als.py:80-176`): new factors have the type `dtype`; `CSRMatrix` takes the indices as
`int[:]` (`implicit/gpu/_cuda.pyx:224-231`); the solver throws `invalid_argument` if the types of the factors differ
(`implicit/gpu/als.cu:166`). -/
def gpuFitT (iterations : Nat) (m : TModel) (userItems : MatT) : Except Err TModel := do
  let user ← initT (gpuAstype m.dtype) m.user
  let item ← initT (gpuAstype m.dtype) m.item
  int32T userItems.index
  if iterations ≠ 0 then
    bufferT user item
  return { m with user := some user, item := some item, userNorms := none, itemNorms := none, yty := none, xtx := none }

/-- `to_cpu` (`implicit/gpu/als.py:296-310`): `to_numpy` keeps the type. -/
def toCpuT (m : TModel) : TModel := { TModel.new m.dtype with user := m.user, item := m.item }

/-- An optional matrix, moved to the device. -/
def gpuMatrixOptT : Option FType → Except Err (Option FType)
  | none => .ok none
  | some t => do return some (← gpuMatrixT t)

/-- `to_gpu` (`implicit/cpu/als.py:431-448`). -/
def toGpuT (m : TModel) : Except Err TModel := do
  let user ← gpuMatrixOptT m.user
  let item ← gpuMatrixOptT m.item
  return { TModel.new m.dtype with user := user, item := item }

end Implicit
