/-!
# Specification: the arguments of a python call as the caller means them
-/

namespace Implicit.Spec

/-- A call: positional arguments and keyword arguments. -/
structure Call (K V : Type) where
  pos : List V
  kw : List (K × V)

/-- The call fits the documented parameter list `names`, of which the first `positional` may be given by position: no
surplus arguments, no unknown names, nothing twice. -/
structure Call.Fits {K V : Type} (names : List K) (positional : Nat) (c : Call K V) : Prop where
  posCount : c.pos.length ≤ positional
  known : ∀ e ∈ c.kw, e.1 ∈ names
  once : (c.kw.map Prod.fst).Nodup
  notTwice : ∀ e ∈ c.kw, e.1 ∉ names.take c.pos.length

/-- `v` is the value meant for the parameter `p`. -/
def Call.Means {K V : Type} (names : List K) (default : K → V) (c : Call K V) (p : K) (v : V) : Prop :=
  (∃ i : Nat, names[i]? = some p ∧ c.pos[i]? = some v) ∨ (p, v) ∈ c.kw ∨
    ((∀ i : Nat, names[i]? = some p → c.pos.length ≤ i) ∧ (∀ w, (p, w) ∉ c.kw) ∧ v = default p)

end Implicit.Spec
