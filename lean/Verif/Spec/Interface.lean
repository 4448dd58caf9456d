import Verif.Spec.Call
/-!
# Specification: using an object through the interface of its base class
-/

namespace Implicit.Spec

/-- Whatever the interface accepts (`base`), the object accepts, and it gets the same values. -/
def Substitutable {K V E : Type} (base impl : Call K V → Except E (List V)) : Prop :=
  ∀ c vs, base c = .ok vs → impl c = .ok vs

end Implicit.Spec
