import Verif.Model.CallerData
/-!
# What a call may do to its caller's data
-/

namespace Implicit

variable {R : Type}

/-- Every array and every object that existed is as before; there may be new ones. -/
structure Spec.Unchanged (m m' : PyMem R) : Prop where
  arrays : m.arrays <+: m'.arrays
  objects : m.objects <+: m'.objects

/-- The object is new and so are its arrays: whatever is done to it later, older objects do not change. -/
structure Spec.Fresh (m m' : PyMem R) (x : Nat) : Prop where
  new : m.objects.length ≤ x
  exist : x < m'.objects.length
  data : m.arrays.length ≤ (m'.object x).data
  minor : m.arrays.length ≤ (m'.object x).minor
  major : m.arrays.length ≤ (m'.object x).major

/-- The arrays of a CSR matrix fit together. -/
structure Spec.ValidCsr (m : PyMem R) (o : SpObject) : Prop where
  format : o.format = .csr
  data : ∃ l, m.arrays[o.data]? = some (.vals l)
  minor : ∃ l, m.arrays[o.minor]? = some (.ints l)
  major : ∃ l, m.arrays[o.major]? = some (.ints l)
  other : o.minor ≠ o.major
  length : (m.ints o.minor).length = (m.vals o.data).length
  nonneg : ∀ p ∈ m.ints o.major, 0 ≤ p
  mono : (m.ints o.major).Pairwise (· ≤ ·)
  bound : ∀ p ∈ m.ints o.major, p ≤ (m.ints o.minor).length

/-- The three arrays of an object exist. -/
structure Spec.ArraysExist (m : PyMem R) (o : SpObject) : Prop where
  data : o.data < m.arrays.length
  minor : o.minor < m.arrays.length
  major : o.major < m.arrays.length

/-- At most the order of the stored entries of one matrix changes. -/
structure Spec.OnlyReorders (m m' : PyMem R) (o : SpObject) : Prop where
  objects : m.objects <+: m'.objects
  arrays : ∀ a < m.arrays.length, a ≠ o.data → a ≠ o.minor → m'.arrays[a]? = m.arrays[a]?
  same : (m'.triples o).Perm (m.triples o)

end Implicit
