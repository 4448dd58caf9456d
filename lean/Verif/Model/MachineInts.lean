/-!
# Index arithmetic of the native code in machine integers

The other files compute positions with natural numbers.  Here the expressions of the C++, Cython and CUDA code are written
with their C types: `int`, `unsigned int`, `long` and `size_t`, the usual arithmetic conversions, undefined signed overflow
and wrapping unsigned arithmetic (LP64, as on Linux and macOS).
-/

namespace Implicit

/-- The C integer types that occur in index expressions. -/
inductive CTy where
  | int
  | uint
  | long
  | size
deriving DecidableEq

/-- A value with its type. -/
structure CInt where
  ty : CTy
  val : Int
deriving DecidableEq

namespace CTy

def modulus : CTy → Int
  | .int => 2 ^ 32
  | .uint => 2 ^ 32
  | .long => 2 ^ 64
  | .size => 2 ^ 64

def signed : CTy → Bool
  | .int => true
  | .uint => false
  | .long => true
  | .size => false

/-- Conversion to a type: the representative modulo 2^32 or 2^64 (for signed types implementation-defined before C++20, and
this on every compiler). -/
def convert (t : CTy) (x : Int) : Int :=
  let r := x % t.modulus
  if t.signed ∧ t.modulus / 2 ≤ r then r - t.modulus else r

/-- The usual arithmetic conversions. -/
def common : CTy → CTy → CTy
  | .size, _ => .size
  | _, .size => .size
  | .long, _ => .long
  | _, .long => .long
  | .uint, _ => .uint
  | _, .uint => .uint
  | .int, .int => .int

end CTy

namespace CInt

def int (x : Int) : CInt := ⟨.int, x⟩
def uint (x : Int) : CInt := ⟨.uint, x⟩
def long (x : Int) : CInt := ⟨.long, x⟩
def size (x : Int) : CInt := ⟨.size, x⟩

/-- An arithmetic operation; `none` is undefined behaviour. -/
def arith (f : Int → Int → Int) (a b : CInt) : Option CInt :=
  let t := a.ty.common b.ty
  let r := f (t.convert a.val) (t.convert b.val)
  if t.signed then if t.convert r = r then some ⟨t, r⟩ else none else some ⟨t, t.convert r⟩

def add : CInt → CInt → Option CInt := arith (· + ·)
def mul : CInt → CInt → Option CInt := arith (· * ·)

/-- Assignment to a variable of the type. -/
def assign (t : CTy) (a : CInt) : CInt := ⟨t, t.convert a.val⟩

/-- `a < b`. -/
def lt (a b : CInt) : Bool :=
  let t := a.ty.common b.ty
  decide (t.convert a.val < t.convert b.val)

end CInt

open CInt

/-! ## CPU top-k -/

/-- `batch[row * cols + col]` (`implicit/cpu/select.h:21`). -/
def selectRead (cols row col : Nat) : Option Int := do
  let p ← mul (int row) (int cols)
  let p ← add p (int col)
  pure p.val

/-- `ids[row * k + i]` (`implicit/cpu/select.h:34-37`). -/
def selectWrite (k row i : Nat) : Option Int := do
  let p ← mul (int row) (int k)
  let p ← add p (size i)
  pure p.val

/-- `startidx = batch * batch_size`, `endidx = min(startidx + batch_size, query_rows)` (`implicit/cpu/topk.pyx:25-39`); with
one batch the bounds are `0` and `query_rows`. -/
def topkBounds (queries batch : Nat) : Option (Int × Int) :=
  if queries ≤ 100 then some (0, queries)
  else do
    let s ← mul (int batch) (int 100)
    let e ← add s (int 100)
    pure (s.val, min e.val queries)

/-- Where result `i` of row `row` of a batch goes: `c_indices + startidx * k` (`implicit/cpu/topk.pyx:68`) and
`ids[row * k + i]`. -/
def topkWrite (queries k batch row i : Nat) : Option Int := do
  let b ← topkBounds queries batch
  let o ← mul (int b.1) (int k)
  let p ← selectWrite k row i
  pure (o.val + p)

/-! ## All pairs of items -/

/-- `np.zeros(item_count * K)` (`implicit/_nearest_neighbours.pyx:133-135`); `K` is an `unsigned int`. -/
def knnLength (items K : Nat) : Option Int := do
  let p ← mul (int items) (uint K)
  pure p.val

/-- `index2 = K * i` (`implicit/_nearest_neighbours.pyx:155`). -/
def knnFirst (K i : Nat) : Option CInt := do
  let p ← mul (uint K) (int i)
  pure (assign .int p)

/-- An element of a memoryview without bounds check: negative indices count from the end. -/
def viewPosition (length : Int) (idx : CInt) : Int := if idx.val < 0 then idx.val + length else idx.val

/-- The positions written for `count` results, `index2 = index2 + 1` after each (`implicit/_nearest_neighbours.pyx:157-161`). -/
def knnSlots (length : Int) : Nat → CInt → Option (List Int)
  | 0, _ => some []
  | count + 1, idx => do
    let next ← add idx (int 1)
    let rest ← knnSlots length count (assign .int next)
    pure (viewPosition length idx :: rest)

/-- The positions written for item `i`. -/
def knnPositions (items K i count : Nat) : Option (List Int) := do
  let length ← knnLength items K
  let first ← knnFirst K i
  knnSlots length count first

/-! ## CPU training -/

/-- `A + j * factors` (`implicit/cpu/_als.pyx:124`) for 32 bit indices. -/
def alsOffset (factors j : Nat) : Option Int := do
  let p ← mul (int j) (int factors)
  pure p.val

/-- `user_seen_item * neg_prop` (`implicit/cpu/lmf.pyx:256,275`) for 32 bit indices. -/
def lmfSamples (seen negProp : Nat) : Option Int := do
  let p ← mul (int seen) (int negProp)
  pure p.val

/-! ## GPU kernels -/

/-- `X[u * factors]`, then `x[threadIdx.x]` (`implicit/gpu/als.cu:39-41`). -/
def gpuAlsUser (factors u t : Nat) : Option Int := do
  let p ← mul (int u) (int factors)
  pure (p.val + t)

/-- `Y[indices[index] * factors + threadIdx.x]` (`implicit/gpu/als.cu:55,79,224`). -/
def gpuAlsItem (factors item t : Nat) : Option Int := do
  let p ← mul (int item) (int factors)
  let p ← add p (uint t)
  pure p.val

/-- `X[userid * factors]` with `size_t factors`, then `user[threadIdx.x]` (`implicit/gpu/bpr.cu:42-46`). -/
def gpuBprUser (factors u t : Nat) : Option Int := do
  let p ← mul (int u) (size factors)
  pure (p.val + t)

/-- `input[i * cols + threadIdx.x]` with `size_t cols` (`implicit/gpu/matrix.cu:178`). -/
def gpuNormsRead (cols i t : Nat) : Option Int := do
  let p ← mul (int i) (size cols)
  let p ← add p (uint t)
  pure p.val

/-- The values of `u` in `for (int u = blockIdx.x; u < bound; u += gridDim.x)`; `gridDim.x` is unsigned.  At most `fuel`
rounds. -/
def strideLoop (bound : CInt) (grid : Nat) : Nat → CInt → Option (List Int)
  | 0, _ => some []
  | fuel + 1, u =>
    if lt u bound then do
      let next ← add u (uint grid)
      let rest ← strideLoop bound grid fuel (assign .int next)
      pure (u.val :: rest)
    else some []

/-- The rows a block visits in the ALS kernel: the bound is a `size_t` (`implicit/gpu/als.cu:38`). -/
def gpuAlsRows (users grid block fuel : Nat) : Option (List Int) := strideLoop (size users) grid fuel (int block)

/-- The samples a block draws in the BPR kernel: the bound is an `int` (`implicit/gpu/bpr.cu:28`). -/
def gpuBprSamples (samples grid block fuel : Nat) : Option (List Int) := strideLoop (int samples) grid fuel (int block)

/-! ## GPU top-k -/

/-- `distances + start * k` (`implicit/gpu/knn.cu:246,248`). -/
def gpuKnnOffset (k start : Nat) : Option Int := do
  let p ← mul (int start) (int k)
  pure p.val

/-- `start += batch_size` (`implicit/gpu/knn.cu:183`): `int` plus `size_t`. -/
def gpuKnnNext (start batch : Nat) : Option Int := do
  let p ← add (int start) (size batch)
  pure (assign .int p).val

/-- `data[row * cols + col]` in the filter of items (`implicit/gpu/knn.cu:218`). -/
def gpuKnnFilter (cols row col : Nat) : Option Int := do
  let p ← mul (int row) (int cols)
  let p ← add p (int col)
  pure p.val

end Implicit
