import Verif.Model.AnnFit
import Verif.Model.FailedCalls

/-!
# Calls on an approximate model with their outcomes

Histories as in `Model/AnnFit.lean`, keeping what every call returns or raises.
-/

namespace Implicit

variable {f : Nat}

/-- The public calls; `onModel` is a call on the attribute `model`. -/
inductive AnnCall (f : Nat) where
  | fit (inner : InnerFit f)
  | recommend (a : AnnRecommendArgs)
  | similarItems (a : AnnSimilarArgs)
  | onModel (c : MFCall f ℝ)

/-- What a call returns: nothing, an answer of the approximate model, or the result of a call on the wrapped model. -/
inductive AnnReturn (f : Nat) where
  | nothing
  | answer (a : AnnAnswer ℝ)
  | ofModel (r : Option (Result f ℝ))

/-- One call on an Annoy (`implicit/ann/annoy.py:65-233`) or NMSLib model (`implicit/ann/nmslib.py:74-237`). -/
noncomputable def annCall (kind : AnnKind) (E : AnnEnv f) (st : AnnState f (f + 1)) :
    AnnCall f → Except Err (AnnReturn f) × AnnState f (f + 1)
  | .fit inner => ((annFit kind E inner st).1.map fun _ => .nothing, (annFit kind E inner st).2)
  | .recommend a =>
    ((annRecommendOn kind E st a).1.map .answer, { st with inner := (annRecommendOn kind E st a).2 })
  | .similarItems a => ((annSimilarOn kind E st a).1.map .answer, { st with inner := (annSimilarOn kind E st a).2 })
  | .onModel c => ((runCall E.env st.inner c).1.map .ofModel, { st with inner := (runCall E.env st.inner c).2 })

/-- One call on a Faiss model with an index on the CPU (`implicit/ann/faiss.py:77-276`). -/
noncomputable def faissCall (E : AnnEnv f) (nlist : Nat) (st : AnnState f f) :
    AnnCall f → Except Err (AnnReturn f) × AnnState f f
  | .fit inner => ((faissFit E nlist inner st).1.map fun _ => .nothing, (faissFit E nlist inner st).2)
  | .recommend a => ((faissRecommendOn E st a).1.map .answer, { st with inner := (faissRecommendOn E st a).2 })
  | .similarItems a => ((faissSimilarOn E st a).1.map .answer, { st with inner := (faissSimilarOn E st a).2 })
  | .onModel c => ((runCall E.env st.inner c).1.map .ofModel, { st with inner := (runCall E.env st.inner c).2 })

/-- Calls one after the other; the caller catches the exceptions. -/
def callsOf {σ κ α : Type} (step : σ → κ → Except Err α × σ) : σ → List κ → List (Except Err α) × σ
  | s, [] => ([], s)
  | s, c :: cs => ((step s c).1 :: (callsOf step (step s c).2 cs).1, (callsOf step (step s c).2 cs).2)

end Implicit
