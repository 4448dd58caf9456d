import Verif.Model.RoundWeights
import Verif.Spec.WeightError
import Verif.Lemmas.Relative
import Verif.Props.C29
/-!
# C99: TF-IDF and BM25 weights in floating point
-/

namespace Implicit

theorem UpTo.withinFactor {G c x : ℝ} (h : UpTo G c x) (hx : 0 < x) : Spec.WithinFactor G c x :=
  ⟨h.pos hx, by
    rw [div_le_iff₀ (by linarith [h.one])]
    linarith [h.lower], h.upper⟩

/-- The difference of the logarithms is at least `1/n`. -/
theorem inv_le_idf {n c : Nat} (h : c + 1 < n) : 1 / (n : ℝ) ≤ Real.log n - Real.log (1 + c) := by
  have hn : (0 : ℝ) < n := by exact_mod_cast (by omega : 0 < n)
  have hc : (0 : ℝ) < 1 + c := by positivity
  have hcn : (1 + c : ℝ) + 1 ≤ n := by exact_mod_cast (by omega : 1 + c + 1 ≤ n)
  rw [← Real.log_div hn.ne' hc.ne']
  refine le_trans ?_ (Real.one_sub_inv_le_log_of_pos (div_pos hn hc))
  rw [inv_div, ← sub_nonneg]
  have : 1 - (1 + c : ℝ) / n - 1 / n = (n - ((1 + c) + 1)) / n := by field_simp; ring
  rw [this]
  exact div_nonneg (by linarith) hn.le

theorem idf_difference {v : ℝ} (L : LogLibrary v) (hv : 0 ≤ v) {n c : Nat} (h : c + 1 < n) :
    |(L.log n - L.log1p c) - (Real.log n - Real.log (1 + c))| ≤ Spec.idfError v n * (Real.log n - Real.log (1 + c)) := by
  have hn1 : (1 : ℝ) ≤ n := by exact_mod_cast (by omega : 1 ≤ n)
  have hn : (0 : ℝ) < n := by linarith
  have hc : (0 : ℝ) < 1 + c := by positivity
  have hcn : (1 + c : ℝ) ≤ n := by exact_mod_cast (by omega : 1 + c ≤ n)
  have hlog : Real.log (1 + c) ≤ Real.log n := Real.log_le_log hc hcn
  have hln : 0 ≤ Real.log n := Real.log_nonneg hn1
  have h1 := L.log_err n hn1
  have h2 := L.log1p_err c (by positivity)
  have h3 := inv_le_idf h
  have h4 : v * Real.log (1 + c) ≤ v * Real.log n := mul_le_mul_of_nonneg_left hlog hv
  have h5 : 2 * v * Real.log n ≤ Spec.idfError v n * (Real.log n - Real.log (1 + c)) := by
    have : Spec.idfError v n * (1 / n) = 2 * v * Real.log n := by unfold Spec.idfError; field_simp
    rw [← this]
    exact mul_le_mul_of_nonneg_left h3 (by unfold Spec.idfError; positivity)
  have h6 : (L.log n - L.log1p c) - (Real.log n - Real.log (1 + c)) =
      (L.log n - Real.log n) - (L.log1p c - Real.log (1 + c)) := by ring
  rw [h6]
  refine (abs_sub _ _).trans ?_
  linarith

theorem upTo_idf {v : ℝ} (L : LogLibrary v) (hv : 0 ≤ v) (r : Rounding ℝ) (h0 : r.η = 0) (hu : r.u < 1) (X : Coo) (c : Nat)
    (h : Spec.columnCount X.entries c + 1 < X.nrows) (hn : Spec.idfError v X.nrows < 1) :
    UpTo (1 / (1 - Spec.idfError v X.nrows) * r.factor) (roundIdf L r X c) (idf X c) := by
  have hb : bincount (X.entries.map fun e => e.2.1) c = Spec.columnCount X.entries c := by
    unfold bincount Spec.columnCount
    rw [List.count_eq_length_filter, List.filter_map, List.length_map]
    rfl
  have hpos : 0 ≤ Spec.idfError v X.nrows := by
    unfold Spec.idfError
    have : 0 ≤ Real.log X.nrows := Real.log_natCast_nonneg _
    positivity
  have hi := idf_pos h
  have hd := idf_difference L hv h
  unfold roundIdf
  rw [hb]
  rw [idf_eq] at hi ⊢
  exact (UpTo.of_error hpos hn hi.le hd).round r h0 hu

theorem upTo_rowSum (s : Rounding ℝ) (h0 : s.η = 0) (hu : s.u < 1) {X : Coo} (hx : ∀ e ∈ X.entries, 0 < e.2.2) {m : Nat} (i : Nat)
    (hm : (X.entries.filter fun e => e.1 = i).length ≤ m) : UpTo (s.factor ^ m) (roundRowSum s X i) (rowSum X i) := by
  have hl : (((X.entries.map fun e => (e.1, e.2.2)).filter fun e => e.1 == i).map Prod.snd).length =
      (X.entries.filter fun e => e.1 = i).length := by
    rw [List.length_map, List.filter_map, List.length_map]
    rfl
  have h1 := upTo_foldl s h0 hu (((X.entries.map fun e => (e.1, e.2.2)).filter fun e => e.1 == i).map Prod.snd) (by
    intro y hy
    obtain ⟨p, hp, rfl⟩ := List.mem_map.mp hy
    obtain ⟨e, he, rfl⟩ := List.mem_map.mp (List.mem_filter.mp hp).1
    exact (hx e he).le) (k := 0) (c := 0) (s := 0) (by rw [pow_zero]; exact UpTo.self le_rfl)
  rw [zero_add, zero_add, hl] at h1
  exact h1.mono (pow_le_pow_right₀ (one_le_factor s hu) hm)

theorem upTo_average (s r : Rounding ℝ) (hs0 : s.η = 0) (hs : s.u < 1) (hr0 : r.η = 0) (hr : r.u < 1) {X : Coo}
    (hx : ∀ e ∈ X.entries, 0 < e.2.2) {m : Nat} (hm : ∀ i, (X.entries.filter fun e => e.1 = i).length ≤ m) (t : SumTree X.nrows)
    (ht : t.Complete) : UpTo (s.factor ^ (m + X.nrows + 1) * r.factor) (roundAverage s r X t) (averageLength X) := by
  have hG : 1 ≤ s.factor ^ m := one_le_pow₀ (one_le_factor s hs)
  have h1 := upTo_tree s hs0 hs hG (x := fun i => roundRowSum s X i) (y := fun _ => 1) (z := fun i => rowSum X i)
    (fun i => by rw [mul_one]; exact upTo_rowSum s hs0 hs hx i (hm i)) t
  have hsum : (t.leaves.map fun i : Fin X.nrows => rowSum X (i : Nat)).sum = ((List.range X.nrows).map (rowSum X)).sum := by
    rw [(List.Perm.map _ ht).sum_eq, ← List.map_coe_finRange_eq_range, List.map_map]
    rfl
  rw [hsum, List.Perm.length_eq ht, List.length_finRange, ← pow_add] at h1
  have h2 := ((h1.div (UpTo.self (Nat.cast_nonneg X.nrows))).round r hr0 hr).round s hs0 hs
  unfold roundAverage averageLength
  refine h2.mono (le_of_eq ?_)
  rw [pow_succ]
  unfold Rounding.factor
  ring

theorem upTo_lengthNorm (s r : Rounding ℝ) (hs0 : s.η = 0) (hs : s.u < 1) (hr0 : r.η = 0) (hr : r.u < 1) {B : ℝ} (hB0 : 0 ≤ B) (hB1 : B ≤ 1)
    {X : Coo} (hx : ∀ e ∈ X.entries, 0 < e.2.2) {m : Nat} (hm : ∀ i, (X.entries.filter fun e => e.1 = i).length ≤ m) (t : SumTree X.nrows)
    (ht : t.Complete) (i : Nat) :
    UpTo (s.factor ^ (2 * m + X.nrows + 5) * r.factor) (roundLengthNorm s r B X t i) (lengthNorm B X i) := by
  have hsf := one_le_factor s hs
  have hrf := one_le_factor r hr
  have h1 := ((UpTo.self (by linarith : 0 ≤ 1 - B)).round r hr0 hr).round s hs0 hs
  have h2 := (((UpTo.self hB0).round s hs0 hs).mul (upTo_rowSum s hs0 hs hx i (hm i))).round s hs0 hs
  have h3 := (h2.div (upTo_average s r hs0 hs hr0 hr hx hm t ht)).round s hs0 hs
  have e3 : 1 * (1 / (1 - s.u)) * s.factor ^ m * (1 / (1 - s.u)) * (s.factor ^ (m + X.nrows + 1) * r.factor) * (1 / (1 - s.u)) =
      s.factor ^ (2 * m + X.nrows + 4) * r.factor := by
    rw [show 1 / (1 - s.u) = s.factor from rfl]
    ring
  rw [e3] at h3
  have h1' := h1.mono (H := s.factor ^ (2 * m + X.nrows + 4) * r.factor) (by
    rw [show 1 / (1 - s.u) = s.factor from rfl, show 1 / (1 - r.u) = r.factor from rfl, one_mul, mul_comm]
    refine mul_le_mul_of_nonneg_right ?_ (by linarith)
    calc s.factor = s.factor ^ 1 := (pow_one _).symm
      _ ≤ _ := pow_le_pow_right₀ hsf (by omega))
  have h4 := (h1'.add h3).round s hs0 hs
  unfold roundLengthNorm lengthNorm
  refine h4.mono (le_of_eq ?_)
  rw [show 1 / (1 - s.u) = s.factor from rfl]
  ring

theorem upTo_bm25 (s r : Rounding ℝ) (hs0 : s.η = 0) (hs : s.u < 1) (hr0 : r.η = 0) (hr : r.u < 1) {K1 x ln ln' w w' G D : ℝ} (hK : 0 ≤ K1)
    (hx : 0 < x) {k : Nat} (hln : UpTo (s.factor ^ k * r.factor) ln' ln) (hw : UpTo (G * r.factor) w' w) (hD : D = s.factor ^ (k + 6) * G * r.factor ^ 4) :
    UpTo D (r.rnd (s.rnd (s.rnd (x * s.rnd (r.rnd (K1 + 1))) / s.rnd (s.rnd (s.rnd K1 * ln') + x)) * w')) (x * (K1 + 1) / (K1 * ln + x) * w) := by
  have hsf := one_le_factor s hs
  have hrf := one_le_factor r hr
  have h1 := ((UpTo.self hx.le).mul (((UpTo.self (by linarith : 0 ≤ K1 + 1)).round r hr0 hr).round s hs0 hs)).round s hs0 hs
  have h2 := (((UpTo.self hK).round s hs0 hs).mul hln).round s hs0 hs
  have hG : 1 ≤ 1 * (1 / (1 - s.u)) * (s.factor ^ k * r.factor) * (1 / (1 - s.u)) := h2.one
  have h3 := (h2.add ((UpTo.self hx.le).mono hG)).round s hs0 hs
  have h4 := (((h1.div h3).round s hs0 hs).mul hw).round r hr0 hr
  rw [hD]
  refine h4.mono (le_of_eq ?_)
  rw [show 1 / (1 - s.u) = s.factor from rfl, show 1 / (1 - r.u) = r.factor from rfl]
  ring

theorem upTo_tfidf {v : ℝ} (L : LogLibrary v) (hv : 0 ≤ v) (s r : Rounding ℝ) (hs0 : s.η = 0) (hs : s.u < 1) (hr0 : r.η = 0) (hr : r.u < 1)
    (X : Coo) (x : ℝ) (c : Nat) (hc : Spec.columnCount X.entries c + 1 < X.nrows) (hn : Spec.idfError v X.nrows < 1) :
    UpTo (Spec.tfidfFactor s.u r.u v X.nrows) (r.rnd (s.rnd (Real.sqrt x) * roundIdf L r X c)) (Real.sqrt x * idf X c) := by
  have h1 := (UpTo.self (Real.sqrt_nonneg x)).round s hs0 hs
  have h2 := (h1.mul (upTo_idf L hv r hr0 hr X c hc hn)).round r hr0 hr
  refine h2.mono (le_of_eq ?_)
  unfold Spec.tfidfFactor
  rw [show 1 / (1 - r.u) = r.factor from rfl]
  ring

/-- **C99** (TF-IDF weights).  Positive ratings, every user with fewer than `n - 1` of the `n` items, no underflow: the weight that
`tfidf_weight` stores is positive, in the cell of the rating, and within the factor `tfidfFactor` of the exact weight. -/
theorem C99_tfidf_weights {v : ℝ} (L : LogLibrary v) (hv : 0 ≤ v) (s r : Rounding ℝ) (hs0 : s.η = 0) (hs : s.u < 1) (hr0 : r.η = 0)
    (hr : r.u < 1) (X : Coo) (hX : ∀ e ∈ X.entries, 0 < e.2.2 ∧ Spec.columnCount X.entries e.2.1 + 1 < X.nrows)
    (hn : Spec.idfError v X.nrows < 1) :
    (roundTfidf L s r X).nrows = X.nrows ∧ (roundTfidf L s r X).entries.length = X.entries.length ∧
      ∀ (k i u : Nat) (x : ℝ), X.entries[k]? = some (i, u, x) → ∃ w, (roundTfidf L s r X).entries[k]? = some (i, u, w) ∧
        Spec.WithinFactor (Spec.tfidfFactor s.u r.u v X.nrows) w
          (Real.sqrt x * (Real.log X.nrows - Real.log (1 + Spec.columnCount X.entries u))) := by
  refine ⟨rfl, by simp [roundTfidf], fun k i u x hk => ⟨_, by unfold roundTfidf; rw [List.getElem?_map, hk]; rfl, ?_⟩⟩
  obtain ⟨hx, hc⟩ := hX _ (List.mem_of_getElem? hk)
  rw [← idf_eq]
  exact (upTo_tfidf L hv s r hs0 hs hr0 hr X x u hc hn).withinFactor (mul_pos (Real.sqrt_pos.mpr hx) (idf_pos hc))

/-- **C99** (BM25 weights).  Positive ratings, at most `m` per item, every user with fewer than `n - 1` of the `n` items, `K1 ≥ 0`, `B`
from `0` to `1`, no underflow: whatever the order in which the mean is summed, the weight that `bm25_weight` stores is positive, in
the cell of the rating, and within the factor `bm25Factor` of the exact weight. -/
theorem C99_bm25_weights {v : ℝ} (L : LogLibrary v) (hv : 0 ≤ v) (s r : Rounding ℝ) (hs0 : s.η = 0) (hs : s.u < 1) (hr0 : r.η = 0)
    (hr : r.u < 1) (K1 B : ℝ) (hK : 0 ≤ K1) (hB0 : 0 ≤ B) (hB1 : B ≤ 1) (X : Coo)
    (hX : ∀ e ∈ X.entries, 0 < e.2.2 ∧ Spec.columnCount X.entries e.2.1 + 1 < X.nrows) (m : Nat)
    (hm : ∀ i, (X.entries.filter fun e => e.1 = i).length ≤ m) (t : SumTree X.nrows) (ht : t.Complete)
    (hn : Spec.idfError v X.nrows < 1) :
    (roundBm25 L s r K1 B X t).nrows = X.nrows ∧ (roundBm25 L s r K1 B X t).entries.length = X.entries.length ∧
      ∀ (k i u : Nat) (x : ℝ), X.entries[k]? = some (i, u, x) → ∃ w, (roundBm25 L s r K1 B X t).entries[k]? = some (i, u, w) ∧
        Spec.WithinFactor (Spec.bm25Factor s.u r.u v X.nrows m) w
          (x * (K1 + 1) / (K1 * lengthNorm B X i + x) * (Real.log X.nrows - Real.log (1 + Spec.columnCount X.entries u))) := by
  refine ⟨rfl, by simp [roundBm25], fun k i u x hk => ⟨_, by unfold roundBm25; rw [List.getElem?_map, hk]; rfl, ?_⟩⟩
  obtain ⟨hx, hc⟩ := hX _ (List.mem_of_getElem? hk)
  rw [← idf_eq]
  have hl := upTo_lengthNorm s r hs0 hs hr0 hr hB0 hB1 (fun e he => (hX e he).1) hm t ht i
  refine (upTo_bm25 s r hs0 hs hr0 hr hK hx hl (upTo_idf L hv r hr0 hr X u hc hn) ?_).withinFactor ?_
  · unfold Spec.bm25Factor
    rfl
  · have := hl.nonneg
    have h2 := idf_pos hc
    positivity

end Implicit
