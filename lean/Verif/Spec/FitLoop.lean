import Verif.Model.Basic
/-!
# Specification: training as a plain repetition
-/

namespace Implicit.Spec

/-- `k` repetitions of a training step, nobody watching; the first exception ends it. -/
def repeated {M I : Type} (step : M → Except Err I × M) : Nat → M → Except Err Unit × M
  | 0, m => (.ok (), m)
  | k + 1, m =>
    match step m with
    | (.error e, m') => (.error e, m')
    | (.ok _, m') => repeated step k m'

end Implicit.Spec
