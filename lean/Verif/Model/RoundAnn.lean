import Verif.Model.Augment
import Verif.Model.Rounding
/-!
# Approximate models in floating point

`augment_inner_product_matrix` (`implicit/utils.py:86-103`) and the scores of Annoy and NMSLib on real numbers with roundings.  The item factors
are single precision; the query `np.append(user, 0)` and the scores are double precision.  The square root of a negative number is NaN, and a
row with a NaN is `none` here.  Overflow is not included.
-/

namespace Implicit

variable {f : Nat}

/-- `np.linalg.norm` of a row (`implicit/utils.py:97`, `implicit/ann/annoy.py:230`, `implicit/ann/nmslib.py:229`). -/
noncomputable def rowNorm (r : Rounding ℝ) (t : SumTree f) (x : Vec f ℝ) : ℝ := r.rnd (Real.sqrt (t.eval r x x))

/-- `np.sqrt(max_norm**2 - norms**2)` for one row (`implicit/utils.py:102`).  `max_norm` is a scalar, and numpy squares scalars with another
function (`pow`) than arrays. -/
noncomputable def roundExtra (r : Rounding ℝ) (pow : ℝ → ℝ) (maxNorm norm : ℝ) : Option ℝ :=
  let c := r.rnd (pow maxNorm - r.rnd (norm * norm))
  if c < 0 then none else some (r.rnd (Real.sqrt c))

/-- `augment_inner_product_matrix` (`implicit/utils.py:86-103`), the squares of row `i` being summed in the order `order i`. -/
noncomputable def roundAugment (r : Rounding ℝ) (pow : ℝ → ℝ) (order : Nat → SumTree f) (factors : List (Vec f ℝ)) :
    Except Err (ℝ × List (Option (Vec (f + 1) ℝ))) :=
  match factors.zipIdx.map fun p => rowNorm r (order p.2) p.1 with
  | [] => .error .valueError
  | n :: ns =>
    let maxNorm := ns.foldl max n
    .ok (maxNorm, factors.zipIdx.map fun p => (roundExtra r pow maxNorm (rowNorm r (order p.2) p.1)).map fun x => Fin.snoc p.1 x)

/-- Score from Annoy's angular distance (`implicit/ann/annoy.py:230-231`); the scaling is rounded first. -/
noncomputable def roundAnnoyScore (s : Rounding ℝ) (scaling d : ℝ) : ℝ :=
  s.rnd (s.rnd scaling * s.rnd (1 - s.rnd (s.rnd (d * d) / 2)))

/-- Score from NMSLib's cosine distance (`implicit/ann/nmslib.py:229-230`).  The distances are single precision, so the difference is too (`w`);
the scaling is double precision (`s`), before numpy 2 it is converted for the product (`c`), whose precision is `p`. -/
noncomputable def roundNmslibScore (s c w p : Rounding ℝ) (scaling d : ℝ) : ℝ := p.rnd (c.rnd (s.rnd scaling) * w.rnd (1 - d))

end Implicit
