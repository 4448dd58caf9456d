import Mathlib.Tactic.TypeStar
/-!
# Shared vocabulary of the model

Python exceptions and undefined behaviour of native code are values of `Err`;
a call that may raise has type `Except Err a`.
-/

namespace Implicit

/-- How a call can fail.  All but the last are python exceptions that the code
of the repository raises (explicitly or through numpy); `undefinedBehaviour`
marks native code leaving its arrays or breaking a library precondition. -/
inductive Err where
  | valueError
  | indexError
  | typeError
  | attributeError
  | notImplemented
  | zeroDivision
  | modelFitError
  | runtimeError
  | fileNotFound
  | overflowError
  | undefinedBehaviour
deriving DecidableEq, Repr

/-- Did the call return normally? -/
def _root_.Except.isOkB {ε α : Type _} : Except ε α → Bool
  | .ok _ => true
  | .error _ => false

end Implicit
