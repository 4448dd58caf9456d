import Verif.Model.GpuDot
/-!
# What a block of threads should compute
-/

namespace Implicit.Spec

open Implicit

variable {R : Type} [LinearOrder R] [Field R]

/-- The values of `k` successive dot products over `n` threads; `inp i outs` is the product of thread `i`
when the values `outs` have been returned. -/
def blockDots (n : Nat) (inp : Nat → List R → R) : Nat → List R
  | 0 => []
  | k + 1 => blockDots n inp k ++ [∑ i ∈ Finset.range n, inp i (blockDots n inp k)]

/-- There is a barrier between any two calls. -/
def Separated (p : List DotCmd) : Prop := p.IsChain fun a b => ¬ (a = .call ∧ b = .call)

/-- The warps are full, or the lanes that do not exist deliver zeros. -/
def Tame (n : Nat) (undef : Nat → Fin 32 → R) : Prop := n % 32 = 0 ∨ undef = fun _ _ => 0

end Implicit.Spec
