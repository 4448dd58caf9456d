import Verif.Model.Parallel
import Mathlib.Algebra.Order.Field.Basic
import Mathlib.Algebra.BigOperators.Fin
/-!
# The dot product of a thread block: `implicit/gpu/dot.cuh`

The threads of a block form warps of 32; a warp runs in lock step (simplified: no divergence inside a
warp).  Between two `__syncthreads()` the warps run independently, in any interleaving; nobody passes a
`__syncthreads()` before everybody has reached it.  So an execution is a list of *phases*, each an
arbitrary interleaving of what the warps do between two barriers.
-/

namespace Implicit

variable {R : Type} [LinearOrder R] [Field R]

/-! ## One warp -/

/-- `__shfl_down_sync(active, val, off)` for lane `l`: the value of lane `l + off`; the own value if there
is no such lane; something undefined if that lane does not take part. -/
def shflDown (undef : Fin 32 → R) (active off : Nat) (v : Fin 32 → R) (l : Fin 32) : R :=
  if h : l.val + off < 32 then
    if l.val + off < active then v ⟨l.val + off, h⟩ else undef ⟨l.val + off, h⟩
  else v l

/-- One round: `val += __shfl_down_sync(active, val, offset)`. -/
def shflRound (undef : Nat → Fin 32 → R) (active : Nat) (v : Fin 32 → R) (off : Nat) : Fin 32 → R :=
  fun l => v l + shflDown (undef off) active off v l

/-- `implicit/gpu/dot.cuh:9-25`, `warp_reduce_sum`, for a warp with `active` threads; `undef off l` is what
comes from lane `l` in the round with offset `off` if it does not take part. -/
def warpReduce (undef : Nat → Fin 32 → R) (active : Nat) (v : Fin 32 → R) : Fin 32 → R :=
  [16, 8, 4, 2, 1].foldl (shflRound undef active) v

/-! ## The block -/

/-- `num_warps` (`implicit/gpu/dot.cuh:49`). -/
def numWarps (n : Nat) : Nat := (n + 31) / 32

/-- Threads of warp `w` in a block of `n`. -/
def activeLanes (n w : Nat) : Nat := min 32 (n - 32 * w)

/-- What a warp does with shared memory. -/
inductive DotInstr where
  /-- reduce inside the warp; lane 0: `shared[warp] = val` (`implicit/gpu/dot.cuh:33-39`) -/
  | store
  /-- warp 0: `val = (lane < num_warps) ? shared[lane] : 0`, reduced (`:48-51`) -/
  | reduce
  /-- thread 0: `shared[0] = val` (`:53-55`) -/
  | broadcast
  /-- `return shared[0]` (`:44,58`) -/
  | read
  deriving DecidableEq

/-- Registers of a warp: the result of the second reduction, and the values `dot` has returned so far. -/
structure DotScratch (R : Type) where
  acc : R
  outs : List R

/-- Effect of the instructions on a block of `n` threads.  `inp i outs` is the product `a * b` of thread `i`;
it may depend on the values returned by earlier calls. -/
def dotAct (n : Nat) (undef : Nat → Fin 32 → R) (inp : Nat → List R → R) :
    Act (Nat × DotInstr) (DotScratch R) Nat R
  | (w, .store), s, m =>
    (s, Function.update m w (warpReduce undef (activeLanes n w) (fun l => inp (32 * w + l.val) s.outs) 0))
  | (w, .reduce), s, m =>
    ({ s with acc := warpReduce undef (activeLanes n w) (fun l => if l.val < numWarps n then m l.val else 0) 0 }, m)
  | (_, .broadcast), s, m => (s, Function.update m 0 s.acc)
  | (_, .read), s, m => ({ s with outs := s.outs ++ [m 0] }, m)

/-- What the warps do in one phase. -/
abbrev Phase (W : Nat) := Fin W → List (Nat × DotInstr)

/-- The phases of one call of `dot` (`implicit/gpu/dot.cuh:27-59`). -/
def dotPhases (n : Nat) : List (Phase (numWarps n)) :=
  if n ≤ 32 then [fun w => [(w, .store)], fun w => [(w, .read)]]
  else
    [fun w => [(w, .store)],
     fun w => if w.val = 0 then [(w.val, .reduce), (w.val, .broadcast)] else [],
     fun w => [(w, .read)]]

/-- What a kernel does as far as `dot` is concerned. -/
inductive DotCmd where
  | call
  | sync
  deriving DecidableEq

/-- Continue in the phase in which the call returned: there is no barrier at the end of `dot`. -/
def glue {W : Nat} : List (Phase W) → List (Phase W) → List (Phase W)
  | [], q => q
  | [a], [] => [a]
  | [a], b :: q => (fun w => a w ++ b w) :: q
  | a :: a' :: p, q => a :: glue (a' :: p) q

/-- The phases of a kernel. -/
def dotProgram (n : Nat) : List DotCmd → List (Phase (numWarps n))
  | [] => [fun _ => []]
  | .sync :: p => (fun _ => []) :: dotProgram n p
  | .call :: p => glue (dotPhases n) (dotProgram n p)

/-- An execution: one interleaving for each phase. -/
def IsPhased {W : Nat} (phases : List (Phase W)) (ws : List (List (Fin W × (Nat × DotInstr)))) : Prop :=
  List.Forall₂ (fun (ph : Phase W) w => ∀ t, streamOf t w = ph t) phases ws

/-- Run the phases one after the other. -/
def execPhases {I Sc Addr V Th : Type} [DecidableEq Th] (act : Act I Sc Addr V) :
    List (List (Th × I)) → (Th → Sc) → (Addr → V) → (Th → Sc) × (Addr → V)
  | [], σ, m => (σ, m)
  | w :: ws, σ, m =>
    execPhases act ws (execInterleaved act w σ m).1 (execInterleaved act w σ m).2

/-- The calls and barriers of `least_squares_cg_kernel` for a row with `entries` stored values and `steps`
iterations (`implicit/gpu/als.cu:54-98`). -/
def alsRowCmds (entries steps : Nat) : List DotCmd :=
  List.replicate entries .call ++ [.sync, .call] ++
    (List.replicate steps (List.replicate entries .call ++ [.call, .sync, .call, .sync])).flatten

/-- The calls of `calculate_norms_kernel` for `rows` rows (`implicit/gpu/matrix.cu:173-187`), and of
`bpr_update_kernel` for `rows` samples (`implicit/gpu/bpr.cu:28-64`): one after the other. -/
def rowCmds (rows : Nat) : List DotCmd := List.replicate rows .call

end Implicit
