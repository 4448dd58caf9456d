import Verif.Props.C83Single
import Verif.Props.C103Double
import Verif.Props.C78Knn

/-!
The hypotheses of the floating point and of the appended item theorems hold together on one matrix of ratings,
in double precision without an exponent range.
-/

namespace Implicit

theorem exampleRatings_coRaters (i : Nat) : Spec.coRaters exampleRatings i i ≤ 2 :=
  (List.countP_le_length).trans (by simp [exampleRatings])

example := C83_cosine_partial insertionHeap (freeFloat 53) rfl 3 2 (by norm_num) (by norm_num) exampleRatings exampleRatings_nodup
  exampleRatings_items exampleRatings_nonzero 2 exampleRatings_coRaters (C83_cosine_double 2 (by norm_num)).2

example := C83_fit_partial insertionHeap (freeFloat 53) 3 2 (by norm_num) (by norm_num) exampleRatings exampleRatings_nodup exampleRatings_items

example := C83_symmetric insertionHeap (freeFloat 53) 3 2 (by norm_num) (by norm_num) exampleRatings exampleRatings_nodup exampleRatings_items

example := C78_cosine_items insertionHeap 3 2 4 (by norm_num) (by norm_num) exampleRatings exampleRatings_items

end Implicit
