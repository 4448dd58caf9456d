import Verif.Model.MFBase
/-!
# Comparing two answers row by row
-/

namespace Implicit.Spec

variable {R : Type}

/-- Two answers of the same form, related row by row. -/
inductive Rowwise (r : List (Nat × R) → List (Nat × R) → Prop) : Answer R → Answer R → Prop
  | one {a b : List (Nat × R)} : r a b → Rowwise r (.one a) (.one b)
  | many {as bs : List (List (Nat × R))} : List.Forall₂ r as bs → Rowwise r (.many as) (.many bs)

/-- The scores of `a` are the first `N` scores of `b`. -/
def ScorePrefix (N : Nat) (a b : List (Nat × R)) : Prop :=
  a.map Prod.snd = (b.map Prod.snd).take N

end Implicit.Spec
