import Verif.Model.Persist

/-!
# Specification vocabulary: persistent state of models
-/

namespace Implicit.Spec

variable {R : Type}

/-- Documented constructor parameters and attributes of the ALS model (cpu/als.py:29-58). -/
def alsAttrs : List Attr :=
  [.factors, .regularization, .alpha, .dtype, .useNative, .useCg, .iterations, .calculateTrainingLoss,
    .numThreads, .randomState, .itemFactors, .userFactors]

/-- Documented constructor parameters and attributes of the BPR model (cpu/bpr.pyx:77-106). -/
def bprAttrs : List Attr :=
  [.factors, .learningRate, .regularization, .dtype, .iterations, .verifyNegativeSamples, .numThreads,
    .randomState, .itemFactors, .userFactors]

/-- Documented constructor parameters and attributes of the LMF model (cpu/lmf.pyx:68-94). -/
def lmfAttrs : List Attr :=
  [.factors, .learningRate, .regularization, .dtype, .iterations, .negProp, .numThreads,
    .randomState, .itemFactors, .userFactors]

/-- Two objects agree on some attributes. -/
def SameOn (attrs : List Attr) (o o' : PyObj R) : Prop := ∀ k ∈ attrs, o' k = o k

/-- A number, a boolean or a numeric array of positive dimension; integers within 64 bits. -/
def Plain : PyVal R → Prop
  | .int n => -2 ^ 63 ≤ n ∧ n < 2 ^ 64
  | .float _ => True
  | .bool _ => True
  | .array _ => True
  | _ => False

/-- The attributes of a model as the constructors and `fit` leave them, with an integer seed or none:
a `dtype`, factors and seed possibly `None`, everything else plain. -/
def MfState (attrs : List Attr) (o : PyObj R) : Prop :=
  ∀ k ∈ attrs,
    if k = .dtype then ∃ n, o k = some (.dtype n)
    else (∃ v, o k = some v ∧ Plain v) ∨
      ((k = .userFactors ∨ k = .itemFactors ∨ k = .randomState) ∧ o k = some .none)

/-- The entry of a two-dimensional array at row `i`, column `j`. -/
def cellAt (a : NdArray R) (i j : Nat) : Option R :=
  match a.shape with
  | [rows, cols] =>
    if i < rows ∧ j < cols then a.data[if a.fortran then i + j * rows else i * cols + j]? else .none
  | _ => .none

end Implicit.Spec
