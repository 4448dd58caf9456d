import Verif.Model.ElementTypes
/-!
# Models whose arrays all have one element type
-/

namespace Implicit.Spec

/-- The parameter `dtype` and both factor arrays are of type `t`, and so is everything that is cached. -/
structure OfType (t : FType) (m : TModel) : Prop where
  dtype : m.dtype = t
  user : m.user = some t
  item : m.item = some t
  caches : ∀ c ∈ [m.userNorms, m.itemNorms, m.yty, m.xtx], ∀ s, c = some s → s = t

/-- Calls of a factor model, with the options in force at the time of the call and the types of the matrix passed. -/
inductive TypedCall where
  | fit (o : AlsOptions) (c : MatT)
  | recommend (o : AlsOptions) (recalculate : Bool) (c : MatT)
  | similarItems (o : AlsOptions) (recalculate : Bool) (c : MatT)
  | similarUsers
  | explain
  | recalculateUser (o : AlsOptions) (c : MatT)
  | recalculateItem (o : AlsOptions) (c : MatT)
  | partialFitUsers (o : AlsOptions) (grow : Bool) (c : MatT)
  | partialFitItems (o : AlsOptions) (grow : Bool) (c : MatT)

/-- The type of what is returned, if an array or number is returned: that of the model, for `explain` float64. -/
def TypedCall.expected (t : FType) : TypedCall → Option FType
  | .explain => some .f64
  | .fit .. | .partialFitUsers .. | .partialFitItems .. => none
  | _ => some t

end Implicit.Spec
