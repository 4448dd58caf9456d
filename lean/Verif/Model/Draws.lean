import Verif.Model.BPR
import Verif.Model.LMF
/-!
# How random words become draws

On the CPU a draw is `uniform_int_distribution<long>(0, nnz - 1)` applied to `mt19937`
(`implicit/cpu/bpr.pyx:34-59,185`, `implicit/cpu/lmf.pyx:31-56,177`), which is a template of libstdc++
(`bits/uniform_int_dist.h`, version 13).  `mt19937` gives words below `2^32`; here the words are a list.
On the GPU a draw is a word of curand modulo the number of samples (`implicit/gpu/bpr.cu:29-30,103-104`).
-/

namespace Implicit

/-- The loop of `_S_nd` (`uniform_int_dist.h:269-280`): `product` is the last word times `range`, `low` its
lower half.  `none`: the words are used up. -/
def lemireLoop (W range threshold : Nat) (product low : Nat) : List Nat → Option (Nat × List Nat)
  | [] => if low < threshold then none else some (product / W, [])
  | w :: ws =>
    if low < threshold then lemireLoop W range threshold (w * range) (w * range % W) ws
    else some (product / W, w :: ws)

/-- `_S_nd` (`uniform_int_dist.h:255-282`): a number below `range` from words below `W`, and the words left.
`-range % range` is computed modulo `W`. -/
def lemire (W range : Nat) : List Nat → Option (Nat × List Nat)
  | [] => none
  | w :: ws =>
    let product := w * range
    let low := product % W
    if low < range then lemireLoop W range ((W - range) % range) product low ws
    else some (product / W, ws)

/-- `uniform_int_distribution<long>(0, last)` applied to `mt19937` (`uniform_int_dist.h:284-345`).  Ranges
beyond `2^32` (more stored entries than that) are left out. -/
def stdUniform (last : Nat) (words : List Nat) : Option (Nat × List Nat) :=
  if last < 2 ^ 32 - 1 then lemire (2 ^ 32) (last + 1) words
  else if last = 2 ^ 32 - 1 then
    match words with
    | [] => none
    | w :: ws => some (w, ws)
  else none

/-- The two draws of one sample (`implicit/cpu/bpr.pyx:269-274`): first the positive, then the negative
index, from the same generator. -/
def bprDraw (nnz : Nat) (words : List Nat) : Option ((Nat × Nat) × List Nat) := do
  let (l, ws) ← stdUniform (nnz - 1) words
  let (d, ws) ← stdUniform (nnz - 1) ws
  pure ((l, d), ws)

end Implicit
