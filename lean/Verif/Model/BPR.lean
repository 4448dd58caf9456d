import Verif.Model.ALS
import Verif.Model.Parallel
import Mathlib.Algebra.BigOperators.Group.Finset.Basic
import Mathlib.Data.Rat.Defs
import Mathlib.Algebra.Field.Rat
/-!
# Bayesian personalised ranking (`implicit/cpu/bpr.pyx`, `implicit/gpu/bpr.cu`, `implicit/gpu/bpr.py`)

The weights of the sparse matrix are ignored by the code, so a matrix is the list of the column
lists of its rows.  Random draws are explicit: every sample comes with the two indices drawn for it.
The logistic expression `1.0 / (1.0 + exp(score))` is the parameter `sig`.

The factor matrices are shared memory with one address per coordinate.  A sample is a list of
instructions, each touching at most one address, so that interleavings of the threads include every
possible data race (`bpr_update` takes no locks).  Register caching by the compiler is not modelled.
-/

namespace Implicit

/-! ## Looking up a negative sample -/

/-- The loop of `std::lower_bound` on the values `a[first], ..., a[first + len - 1]`; `fuel` bounds the
number of rounds (`len` is always enough). -/
def lowerBound (a : List Nat) (val : Nat) : Nat → Nat → Nat → Except Err Nat
  | 0, first, _ => .ok first
  | fuel + 1, first, len =>
    if len = 0 then .ok first
    else
      let half := len / 2
      match a[first + half]? with
      | none => .error .undefinedBehaviour
      | some x =>
        if x < val then lowerBound a val fuel (first + half + 1) (len - half - 1)
        else lowerBound a val fuel first half

/-- `std::binary_search(&a[first], &a[last], val)`. -/
def binarySearch (a : List Nat) (first last val : Nat) : Except Err Bool := do
  let i ← lowerBound a val (last - first) first (last - first)
  if i = last then pure false
  else
    match a[i]? with
    | none => throw .undefinedBehaviour
    | some x => pure (decide (¬ val < x))

/-- `indptr` of a CSR matrix. -/
def indptrOf (rows : List (List Nat)) : List Nat :=
  (rows.map List.length).scanl (· + ·) 0

/-- `implicit/cpu/bpr.pyx:62-67`, `has_non_zero`, and the lookup of `implicit/gpu/bpr.cu:35-37`. -/
def hasNonZero (indptr indices : List Nat) (row col : Nat) : Except Err Bool :=
  match indptr[row]?, indptr[row + 1]? with
  | some a, some b => binarySearch indices a b col
  | _, _ => .error .undefinedBehaviour

/-- `np.repeat(np.arange(users), user_counts)` (`implicit/cpu/bpr.pyx:152-153`). -/
def useridsOf (rows : List (List Nat)) : List Nat :=
  rows.zipIdx.flatMap fun p => List.replicate p.1.length p.2

/-- `sort_indices` if needed (`implicit/cpu/bpr.pyx:147-148`, `implicit/gpu/bpr.py:96-97`).  The
property `has_sorted_indices` is taken to be computed from the matrix. -/
def bprRows (verify : Bool) (rows : List (List Nat)) : List (List Nat) :=
  if verify && !(rows.all fun r => decide (r.Pairwise (· ≤ ·))) then
    rows.map fun r => r.insertionSort (· ≤ ·)
  else rows

/-- The row of `X` and the rows of `Y` a sample works on. -/
structure BprTriple where
  user : Nat
  liked : Nat
  disliked : Nat
  deriving DecidableEq

/-- Choosing the rows for the drawn indices (`implicit/cpu/bpr.pyx:269-281`); `none`: skipped.  `rows`
is the matrix after `bprRows`. -/
def bprChoose (verify : Bool) (rows : List (List Nat)) (likedIndex dislikedIndex : Nat) :
    Except Err (Option BprTriple) :=
  match rows.flatten[likedIndex]?, (useridsOf rows)[likedIndex]?, rows.flatten[dislikedIndex]? with
  | some liked, some user, some disliked => do
    if verify then
      if ← hasNonZero (indptrOf rows) rows.flatten user disliked then return none
    return some ⟨user, liked, disliked⟩
  | _, _, _ => throw .undefinedBehaviour

/-- The choice of the CUDA kernel: the draws are reduced modulo the number of samples
(`implicit/gpu/bpr.cu:29-43`). -/
def gpuChoose (verify : Bool) (rows : List (List Nat)) (like dislike : Nat) :
    Except Err (Option BprTriple) :=
  bprChoose verify rows (like % rows.flatten.length) (dislike % rows.flatten.length)

/-! ## One sample -/

/-- A coordinate of a factor matrix: `X[u, j]` or `Y[i, j]`. -/
inductive BprCell where
  | user (u j : Nat)
  | item (i j : Nat)
  deriving DecidableEq

variable {R : Type} [LinearOrder R] [Field R]

/-- Thread-private variables of `bpr_update`.  `a`, `b`, `c` hold loaded values; `correct` and
`skipped` are reduction variables, private until the end of the loop. -/
structure BprScratch (R : Type) where
  a : R
  b : R
  c : R
  temp : R
  score : R
  z : R
  correct : Nat
  skipped : Nat

inductive BprInstr where
  /-- `skipped += 1; continue` (`implicit/cpu/bpr.pyx:276-278`) -/
  | skip
  /-- `score = 0` (`:284`) -/
  | zero
  /-- loads of single coordinates -/
  | loadUser (t : BprTriple) (j : Nat)
  | loadLiked (t : BprTriple) (j : Nat)
  | loadDisliked (t : BprTriple) (j : Nat)
  /-- `score = score + user[j] * (liked[j] - disliked[j])` (`:286`) -/
  | score
  /-- `z = 1.0 / (1.0 + exp(score))`, `if z < .5: correct += 1` (`:287-290`) -/
  | logistic
  /-- `temp = user[j]` (`:294`) -/
  | keep
  /-- the stores of `:295-297` -/
  | storeUser (t : BprTriple) (j : Nat)
  | storeLiked (t : BprTriple) (j : Nat)
  | storeDisliked (t : BprTriple) (j : Nat)
  /-- the stores of `:300-301` -/
  | storeLikedBias (t : BprTriple) (j : Nat)
  | storeDislikedBias (t : BprTriple) (j : Nat)

/-- Effect of the instructions. -/
def bprAct (sig : R → R) (lr reg : R) : Act BprInstr (BprScratch R) BprCell R
  | .skip, s, m => ({ s with skipped := s.skipped + 1 }, m)
  | .zero, s, m => ({ s with score := 0 }, m)
  | .loadUser t j, s, m => ({ s with a := m (.user t.user j) }, m)
  | .loadLiked t j, s, m => ({ s with b := m (.item t.liked j) }, m)
  | .loadDisliked t j, s, m => ({ s with c := m (.item t.disliked j) }, m)
  | .score, s, m => ({ s with score := s.score + s.a * (s.b - s.c) }, m)
  | .logistic, s, m =>
    ({ s with
        z := sig s.score
        correct := if sig s.score < 1 / 2 then s.correct + 1 else s.correct }, m)
  | .keep, s, m => ({ s with temp := s.a }, m)
  | .storeUser t j, s, m =>
    (s, Function.update m (.user t.user j) (s.a + lr * (s.z * (s.b - s.c) - reg * s.a)))
  | .storeLiked t j, s, m =>
    (s, Function.update m (.item t.liked j) (s.b + lr * (s.z * s.temp - reg * s.b)))
  | .storeDisliked t j, s, m =>
    (s, Function.update m (.item t.disliked j) (s.c + lr * (-s.z * s.temp - reg * s.c)))
  | .storeLikedBias t j, s, m =>
    (s, Function.update m (.item t.liked j) (s.b + lr * (s.z - reg * s.b)))
  | .storeDislikedBias t j, s, m =>
    (s, Function.update m (.item t.disliked j) (s.c + lr * (-s.z - reg * s.c)))

/-- One round of the loop computing the score (`implicit/cpu/bpr.pyx:285-286`). -/
def bprScoreRound (t : BprTriple) (j : Nat) : List BprInstr :=
  [.loadUser t j, .loadLiked t j, .loadDisliked t j, .score]

/-- One round of the loop updating the factors (`implicit/cpu/bpr.pyx:293-297`). -/
def bprUpdateRound (t : BprTriple) (j : Nat) : List BprInstr :=
  [.loadUser t j, .keep,
   .loadLiked t j, .loadDisliked t j, .storeUser t j,
   .loadLiked t j, .storeLiked t j,
   .loadDisliked t j, .storeDisliked t j]

/-- The update for the rows `t` (`implicit/cpu/bpr.pyx:283-301`); `factors` excludes the bias. -/
def bprUpdateProg (factors : Nat) (t : BprTriple) : List BprInstr :=
  [.zero] ++ (List.range (factors + 1)).flatMap (bprScoreRound t) ++ [.logistic] ++
    (List.range factors).flatMap (bprUpdateRound t) ++
    [.loadLiked t factors, .storeLikedBias t factors,
     .loadDisliked t factors, .storeDislikedBias t factors]

/-- One round of the sampling loop for the drawn indices `d` (`implicit/cpu/bpr.pyx:268-301`).
Out-of-range draws (undefined behaviour) give no instructions; see `C35_choice` for why they cannot
happen. -/
def bprProg (verify : Bool) (rows : List (List Nat)) (factors : Nat) (d : Nat × Nat) :
    List BprInstr :=
  match bprChoose verify rows d.1 d.2 with
  | .error _ => []
  | .ok none => [.skip]
  | .ok (some t) => bprUpdateProg factors t

/-! ## Epochs and `fit` -/

/-- What happens in one call of `bpr_update`: the draws of every thread, and the interleaving. -/
structure BprEpoch (Th : Type) where
  draws : Th → List (Nat × Nat)
  schedule : List (Th × BprInstr)

/-- Fresh thread-private variables: unspecified except for the counters. -/
def BprScratch.fresh (s : BprScratch R) : BprScratch R := { s with correct := 0, skipped := 0 }

variable {Th : Type} [DecidableEq Th]

/-- The factor matrices after one epoch (`implicit/cpu/bpr.pyx:249-303`); `σ` is whatever the
thread-private variables hold at the start. -/
def bprEpoch (sig : R → R) (lr reg : R) (σ : Th → BprScratch R) (e : BprEpoch Th)
    (m : BprCell → R) : (Th → BprScratch R) × (BprCell → R) :=
  execInterleaved (bprAct sig lr reg) e.schedule (fun t => (σ t).fresh) m

/-- The value `(correct, skipped)` returned by `bpr_update`: the private counters are summed at the end of
the parallel loop (`implicit/cpu/bpr.pyx:277,290,303`). -/
def bprStats [Fintype Th] (σ : Th → BprScratch R) : Nat × Nat :=
  (∑ t, (σ t).correct, ∑ t, (σ t).skipped)

/-- The percentages shown by the progress bar, `none` if they are not shown
(`implicit/cpu/bpr.pyx:198-202`, `implicit/gpu/bpr.py:147-154`). -/
def bprReport (total correct skipped : Int) : Option (Rat × Rat) :=
  if total ≠ 0 ∧ total ≠ skipped then
    some (100 * correct / (total - skipped), 100 * skipped / total)
  else none

/-- The epochs of `fit` (`implicit/cpu/bpr.pyx:190-205`). -/
def bprEpochs (sig : R → R) (lr reg : R) (σ : Th → BprScratch R) :
    List (BprEpoch Th) → (BprCell → R) → (BprCell → R)
  | [], m => m
  | e :: es, m => bprEpochs sig lr reg σ es (bprEpoch sig lr reg σ e m).2

/-- The epoch is one the code can perform: every thread's instructions are those of its draws, in
order; every draw is a stored entry (`uniform_int_distribution(0, nnz - 1)`); and there are as many
samples as stored entries. -/
structure BprEpoch.Valid [Fintype Th] (verify : Bool) (rows : List (List Nat)) (factors : Nat)
    (e : BprEpoch Th) : Prop where
  schedule : IsSchedule (bprProg verify rows factors) e.draws e.schedule
  draws : ∀ t, ∀ d ∈ e.draws t, d.1 < rows.flatten.length ∧ d.2 < rows.flatten.length
  samples : ∑ t, (e.draws t).length = rows.flatten.length

/-- Fresh item factors (`implicit/cpu/bpr.pyx:158-164`): `rand i j` is the uniform draw.  `itemids`
are the columns of the stored entries. -/
def bprItemInit (factors : Nat) (rand : Nat → Nat → R) (itemids : List Nat) (i j : Nat) : R :=
  if itemids.count i = 0 then 0 else (rand i j - 1 / 2) / (factors : R)

/-- Fresh user factors (`implicit/cpu/bpr.pyx:166-173`). -/
def bprUserInit (factors : Nat) (rand : Nat → Nat → R) (rows : List (List Nat)) (u j : Nat) : R :=
  if j = factors then 1
  else if (rows[u]?.getD []).length = 0 then 0
  else (rand u j - 1 / 2) / (factors : R)

/-- The memory at the start of the epochs: factors are created if there are none yet. -/
def bprInit (factors : Nat) (randItem randUser : Nat → Nat → R) (rows : List (List Nat))
    (item user : Option (Nat → Nat → R)) : BprCell → R
  | .item i j => (item.getD (bprItemInit factors randItem rows.flatten)) i j
  | .user u j => (user.getD (bprUserInit factors randUser rows)) u j

/-- `fit` (`implicit/cpu/bpr.pyx:122-207`) without the final NaN check (see C21). -/
def bprFit (sig : R → R) (lr reg : R) (verify : Bool) (factors : Nat)
    (randItem randUser : Nat → Nat → R) (matrix : List (List Nat))
    (item user : Option (Nat → Nat → R)) (σ : Th → BprScratch R) (epochs : List (BprEpoch Th)) :
    BprCell → R :=
  bprEpochs sig lr reg σ epochs
    (bprInit factors randItem randUser (bprRows verify matrix) item user)

/-! ## The CUDA kernel -/

/-- Registers of a thread of the CUDA kernel (`implicit/gpu/bpr.cu:26,48-52`). -/
structure GpuBprScratch (R : Type) where
  userVal : R
  likedVal : R
  dislikedVal : R
  z : R
  correct : Nat
  skipped : Nat

/-- Instructions of the CUDA kernel; `l` is `threadIdx.x`. -/
inductive GpuBprInstr (R : Type) where
  /-- `skipped += 1; continue` (`implicit/gpu/bpr.cu:38-39`) -/
  | skip
  /-- the loads (`:45-46`) -/
  | loadUser (t : BprTriple) (l : Nat)
  | loadLiked (t : BprTriple) (l : Nat)
  | loadDisliked (t : BprTriple) (l : Nat)
  /-- `z` from the value `dot` returned to this thread, and the counter (`:48-52`) -/
  | logistic (score : R)
  /-- `liked[threadIdx.x] += ...` (`:54`) -/
  | storeLiked (t : BprTriple) (l : Nat)
  /-- `disliked[threadIdx.x] += ...` (`:55-56`) -/
  | storeDisliked (t : BprTriple) (l : Nat)
  /-- `if (threadIdx.x < factors) user[threadIdx.x] += ...` (`:60-63`); here `factors` is the number
  of columns including the bias -/
  | storeUser (t : BprTriple) (l : Nat)

/-- Effect of the instructions.  A read-modify-write `+=` is one instruction here. -/
def gpuBprAct (sig : R → R) (lr reg : R) (cols : Nat) :
    Act (GpuBprInstr R) (GpuBprScratch R) BprCell R
  | .skip, s, m => ({ s with skipped := s.skipped + 1 }, m)
  | .loadUser t l, s, m => ({ s with userVal := m (.user t.user l) }, m)
  | .loadLiked t l, s, m => ({ s with likedVal := m (.item t.liked l) }, m)
  | .loadDisliked t l, s, m => ({ s with dislikedVal := m (.item t.disliked l) }, m)
  | .logistic score, s, m =>
    ({ s with
        z := sig score
        correct := if sig score < 1 / 2 then s.correct + 1 else s.correct }, m)
  | .storeLiked t l, s, m =>
    (s, Function.update m (.item t.liked l)
      (m (.item t.liked l) + lr * (s.z * s.userVal - reg * s.likedVal)))
  | .storeDisliked t l, s, m =>
    (s, Function.update m (.item t.disliked l)
      (m (.item t.disliked l) + lr * (-s.z * s.userVal - reg * s.dislikedVal)))
  | .storeUser t l, s, m =>
    (s, if l < cols then
        Function.update m (.user t.user l)
          (m (.user t.user l) + lr * (s.z * (s.likedVal - s.dislikedVal) - reg * s.userVal))
      else m)

/-- What thread `l` of a block does for one sample (`implicit/gpu/bpr.cu:28-64`): `d` are the random
numbers of the sample, `score` what `dot` returns to this thread. -/
def gpuBprProg (verify : Bool) (rows : List (List Nat)) (task : Nat × (Nat × Nat) × R) :
    List (GpuBprInstr R) :=
  match gpuChoose verify rows task.2.1.1 task.2.1.2 with
  | .error _ => []
  | .ok none => [.skip]
  | .ok (some t) =>
    [.loadUser t task.1, .loadLiked t task.1, .loadDisliked t task.1, .logistic task.2.2,
     .storeLiked t task.1, .storeDisliked t task.1, .storeUser t task.1]

/-- One launch of the kernel with `cols` threads in every block: the samples of every block (random
numbers), what `dot` returned to every thread for every sample, and the interleaving. -/
structure GpuBprEpoch (B : Type) (R : Type) (cols : Nat) where
  draws : B → List (Nat × Nat)
  score : B → Fin cols → Nat → R
  schedule : List ((B × Fin cols) × GpuBprInstr R)

variable {B : Type} {cols : Nat}

/-- The samples of a thread: those of its block. -/
def GpuBprEpoch.queue (e : GpuBprEpoch B R cols) (t : B × Fin cols) :
    List (Nat × (Nat × Nat) × R) :=
  (e.draws t.1).zipIdx.map fun p => (t.2.val, p.1, e.score t.1 t.2 p.2)

/-- The epoch is one the kernel can perform (`implicit/gpu/bpr.cu:28,88-114`). -/
structure GpuBprEpoch.Valid [DecidableEq B] [Fintype B] (verify : Bool) (rows : List (List Nat))
    (e : GpuBprEpoch B R cols) : Prop where
  schedule : IsSchedule (gpuBprProg verify rows) e.queue e.schedule
  samples : ∑ b, (e.draws b).length = rows.flatten.length

/-- The kernel (`implicit/gpu/bpr.cu:17-69`), starting with zeroed counters. -/
def gpuBprEpoch [DecidableEq B] (sig : R → R) (lr reg : R) (σ : B × Fin cols → GpuBprScratch R)
    (e : GpuBprEpoch B R cols) (m : BprCell → R) :
    (B × Fin cols → GpuBprScratch R) × (BprCell → R) :=
  execInterleaved (gpuBprAct sig lr reg cols) e.schedule
    (fun t => { σ t with correct := 0, skipped := 0 }) m

/-- The counters copied back from the device: thread 0 of every block adds its own
(`implicit/gpu/bpr.cu:66-69`); 32-bit overflow is not modelled. -/
def gpuBprStats [Fintype B] [NeZero cols] (σ : B × Fin cols → GpuBprScratch R) : Nat × Nat :=
  (∑ b, (σ (b, 0)).correct, ∑ b, (σ (b, 0)).skipped)

/-- The epochs of the GPU `fit` (`implicit/gpu/bpr.py:134-158`). -/
def gpuBprEpochs [DecidableEq B] (sig : R → R) (lr reg : R) (σ : B × Fin cols → GpuBprScratch R) :
    List (GpuBprEpoch B R cols) → (BprCell → R) → (BprCell → R)
  | [], m => m
  | e :: es, m => gpuBprEpochs sig lr reg σ es (gpuBprEpoch sig lr reg σ e m).2

end Implicit
