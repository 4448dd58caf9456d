import Verif.Lemmas.Weights
import Verif.Props.C23
import Mathlib.Tactic.FieldSimp
import Mathlib.Tactic.Positivity
/-!
# C29 — cosine, TF-IDF and BM25 weighting
-/

namespace Implicit

/-! ## The stored cells -/

/-- **C29** (cells).  None of the weightings changes the shape or which cells are stored, or their
order. -/
theorem C29_cells (X : Coo) (K1 B : ℝ) :
    let pos := fun Y : Coo => (Y.nrows, Y.entries.map fun e => (e.1, e.2.1))
    pos (normalizeRows X) = pos X ∧ pos (tfidfWeight X) = pos X ∧ pos (bm25Weight K1 B X) = pos X := by
  refine ⟨?_, ?_, ?_⟩ <;>
  · simp only [normalizeRows, tfidfWeight, bm25Weight, List.map_map]
    rfl

/-! ## Unit rows and cosine -/

theorem bincountW_squares (es : List (Nat × Nat × ℝ)) (r : Nat) :
    bincountW (es.map fun e => (e.1, e.2.2 ^ 2)) r = Spec.rowSquares es r := by
  unfold bincountW Spec.rowSquares
  rw [List.filter_map, List.map_map]
  congr 2

theorem rowSquares_pos {es : List (Nat × Nat × ℝ)} {e : Nat × Nat × ℝ} (he : e ∈ es)
    (h : e.2.2 ≠ 0) : 0 < Spec.rowSquares es e.1 := by
  unfold Spec.rowSquares
  refine lt_of_lt_of_le (pow_pos (abs_pos.mpr h) 2) ?_
  rw [sq_abs]
  refine List.single_le_sum ?_ _ (List.mem_map.mpr ⟨e, List.mem_filter.mpr ⟨he, by simp⟩, rfl⟩)
  intro x hx
  obtain ⟨y, -, rfl⟩ := List.mem_map.mp hx
  positivity

/-- **C29** (unit length).  `normalize` gives every row with a non-zero entry length 1. -/
theorem C29_unit (X : Coo) (e : Nat × Nat × ℝ) (he : e ∈ X.entries) (h : e.2.2 ≠ 0) :
    Spec.rowSquares (normalizeRows X).entries e.1 = 1 := by
  have hpos := rowSquares_pos he h
  have : Spec.rowSquares (normalizeRows X).entries e.1 =
      Spec.rowSquares X.entries e.1 / Spec.rowSquares X.entries e.1 := by
    conv_lhs => unfold Spec.rowSquares normalizeRows
    rw [List.filter_map, List.map_map]
    have hf : X.entries.filter ((fun y : Nat × Nat × ℝ => decide (y.1 = e.1)) ∘ fun x => (x.1, x.2.1,
        x.2.2 / Real.sqrt (bincountW (X.entries.map fun e => (e.1, e.2.2 ^ 2)) x.1))) =
        X.entries.filter fun y => decide (y.1 = e.1) := List.filter_congr fun y _ => rfl
    rw [hf]
    have hm : ((X.entries.filter fun y => decide (y.1 = e.1)).map
        ((fun y : Nat × Nat × ℝ => y.2.2 ^ 2) ∘ fun x => (x.1, x.2.1,
          x.2.2 / Real.sqrt (bincountW (X.entries.map fun e => (e.1, e.2.2 ^ 2)) x.1)))) =
        (X.entries.filter fun y => decide (y.1 = e.1)).map fun y =>
          y.2.2 ^ 2 * (Spec.rowSquares X.entries e.1)⁻¹ := by
      refine List.map_congr_left fun y hy => ?_
      have : y.1 = e.1 := by simpa using (List.mem_filter.mp hy).2
      simp only [Function.comp_apply, bincountW_squares, this]
      rw [div_pow, Real.sq_sqrt hpos.le, div_eq_mul_inv]
    rw [hm, List.sum_map_mul_right, div_eq_mul_inv]
    rfl
  rw [this, div_self hpos.ne']

/-- What the item-item model is fitted on after `normalize`: the ratings of every item divided by the
length of its vector. -/
theorem normalized_rows (n : Nat) (g : Nat → Nat → ℝ → ℝ) (M : SpRows ℝ)
    (hnd : ∀ row ∈ M, (row.map Prod.fst).Nodup) :
    userRows M.length (normalizeRows
        ⟨n, (itemUser n M).entries.map fun e => (e.1, e.2.1, g e.1 e.2.1 e.2.2)⟩) =
      (((weightRows g M).map fun row => row.map fun e =>
        (e.1, e.2 / Spec.length (Spec.column (weightRows g M) e.1))).map coalesce) := by
  have h1 : normalizeRows ⟨n, (itemUser n M).entries.map fun e => (e.1, e.2.1, g e.1 e.2.1 e.2.2)⟩ =
      ⟨n, (itemUser n M).entries.map fun e => (e.1, e.2.1,
        (fun i u v => g i u v / Spec.length (Spec.column (weightRows g M) i)) e.1 e.2.1 e.2.2)⟩ := by
    unfold normalizeRows
    simp only [norm_eq n g M hnd]
    rw [List.map_map]
    rfl
  rw [h1, userRows_eq n (fun i u v => g i u v / Spec.length (Spec.column (weightRows g M) i)) M]
  congr 1
  unfold weightRows
  rw [List.map_map]
  refine List.map_congr_left fun p _ => ?_
  simp only [Function.comp_apply, List.map_map]
  rfl

/-- The rows of the similarity matrix after fitting on normalized weights. -/
theorem normalized_fit (H : HeapImpl (ℝ × Nat) pairLt) (n K : Nat) (hK : 1 ≤ K)
    (hnK : n * K ≤ 2 ^ 31) (g : Nat → Nat → ℝ → ℝ) (M : SpRows ℝ)
    (hnd : ∀ row ∈ M, (row.map Prod.fst).Nodup) (hM : ∀ r ∈ M, ∀ e ∈ r, e.1 < n) :
    ∃ sim, knnFit H n K (userRows M.length (normalizeRows
        ⟨n, (itemUser n M).entries.map fun e => (e.1, e.2.1, g e.1 e.2.1 e.2.2)⟩)) false = .ok sim ∧
      sim.length = n ∧ ∀ i, 0 < i → i < n → ∃ row out, sim[i]? = some row ∧ (∀ p, p ∈ row ↔ p ∈ out) ∧
        Spec.IsRanking K (Spec.CoRated M i) (fun j => some (Spec.cosine
          (Spec.column (weightRows g M) i) (Spec.column (weightRows g M) j))) out := by
  rw [normalized_rows n g M hnd]
  set W := weightRows g M with hW
  set D := W.map fun row => row.map fun e => (e.1, e.2 / Spec.length (Spec.column W e.1)) with hD
  have hbound : ∀ r ∈ D.map coalesce, ∀ e ∈ r, e.1 < n := by
    intro r hr e he
    obtain ⟨d, hd, rfl⟩ := List.mem_map.mp hr
    obtain ⟨v, hv⟩ := (stored_coalesce d e.1).mp ⟨e.2, he⟩
    rw [hD] at hd
    obtain ⟨w, hw, rfl⟩ := List.mem_map.mp hd
    obtain ⟨x, hx, hxe⟩ := List.mem_map.mp hv
    rw [hW] at hw
    obtain ⟨⟨r, u⟩, hp, rfl⟩ := List.mem_map.mp hw
    obtain ⟨y, hy, rfl⟩ := List.mem_map.mp hx
    have hy1 : y.1 = e.1 := (Prod.mk.inj hxe).1
    rw [← hy1]
    exact hM r (List.mem_of_getElem? (List.mem_zipIdx_iff_getElem?.mp hp)) y hy
  obtain ⟨sim, e, hl, h⟩ := C23_rows_partial H n K hK hnK (D.map coalesce) hbound
  refine ⟨sim, e, hl, fun i h0 hi => ?_⟩
  obtain ⟨row, out, h1, -, h3, h4⟩ := h i hi
  refine ⟨row, out, h1, h4 (Or.inl (by omega)), ?_⟩
  have hco : Spec.CoRated (D.map coalesce) i = Spec.CoRated M i := by
    funext j
    rw [coRated_coalesce]
    have hDw : Spec.CoRated D i j ↔ Spec.CoRated W i j := by
      unfold Spec.CoRated
      rw [hD]
      simp only [List.mem_map, exists_exists_and_eq_and,
        stored_weight fun i v => v / Spec.length (Spec.column W i)]
    rw [hDw, hW, coRated_weight]
  have hsc : (fun j => some (Spec.similarity (D.map coalesce) i j)) = fun j =>
      some (Spec.cosine (Spec.column W i) (Spec.column W j)) := by
    funext j
    rw [similarity_coalesce, hD, similarity_cosine]
  rw [← hco, ← hsc]
  exact h3

theorem weightRows_id (M : SpRows ℝ) : weightRows (fun _ _ v => v) M = M := by
  unfold weightRows
  have : ∀ k, (M.zipIdx k).map (fun p => p.1.map fun e : Nat × ℝ => (e.1, e.2)) = M := by
    induction M with
    | nil => intro k; rfl
    | cons r M ih => intro k; rw [List.zipIdx_cons, List.map_cons, ih]; simp
  exact this 0

/-- **C29** (`CosineRecommender`; partial: row 0 may have one more entry, see C23).  After `fit` the row of
item `i` holds the `K` items with the greatest cosine among those with a user in common.  Stored zeros are
excluded (`_hz`): an item with only zeros gives `0/0` in numpy. -/
theorem C29_cosine_partial (H : HeapImpl (ℝ × Nat) pairLt) (n K : Nat) (hK : 1 ≤ K)
    (hnK : n * K ≤ 2 ^ 31) (counts : SpRows ℝ) (hnd : ∀ row ∈ counts, (row.map Prod.fst).Nodup)
    (hM : ∀ r ∈ counts, ∀ e ∈ r, e.1 < n) (_hz : ∀ r ∈ counts, ∀ e ∈ r, e.2 ≠ 0) :
    ∃ sim, cosineFit H n K counts false = .ok sim ∧ sim.length = n ∧
      ∀ i, 0 < i → i < n → ∃ row out, sim[i]? = some row ∧ (∀ p, p ∈ row ↔ p ∈ out) ∧
        Spec.IsRanking K (Spec.CoRated counts i)
          (fun j => some (Spec.cosine (Spec.column counts i) (Spec.column counts j))) out := by
  have := normalized_fit H n K hK hnK (fun _ _ v => v) counts hnd hM
  rw [weightRows_id] at this
  have hid : (itemUser n counts).entries.map (fun e : Nat × Nat × ℝ => (e.1, e.2.1, e.2.2)) =
      (itemUser n counts).entries := by simp
  rw [hid] at this
  exact this

/-- **C29** (range).  The similarities of `CosineRecommender` and `TFIDFRecommender` are cosines: they
lie in `[-1, 1]` and an item with a non-zero weight has similarity 1 with itself. -/
theorem C29_range (W : SpRows ℝ) (i j : Nat) :
    |Spec.cosine (Spec.column W i) (Spec.column W j)| ≤ 1 ∧
      ((∃ row ∈ W, Spec.cell row i ≠ 0) →
        Spec.cosine (Spec.column W i) (Spec.column W i) = 1) := by
  refine ⟨cosine_abs_le_one _ _, ?_⟩
  rintro ⟨row, hrow, hc⟩
  refine cosine_self fun h => hc ?_
  obtain ⟨u, hu, rfl⟩ := List.mem_iff_getElem.mp hrow
  exact congrFun h ⟨u, hu⟩

/-! ## TF-IDF -/

/-- The inverse document frequency of a user with `c` of `n` items. -/
theorem idf_eq (X : Coo) (c : Nat) :
    idf X c = Real.log X.nrows - Real.log (1 + Spec.columnCount X.entries c) := by
  unfold idf bincount Spec.columnCount
  congr 4
  rw [List.count_eq_length_filter, List.filter_map, List.length_map]
  congr 1

theorem idf_pos {X : Coo} {c : Nat} (h : Spec.columnCount X.entries c + 1 < X.nrows) :
    0 < idf X c := by
  rw [idf_eq, sub_pos]
  apply Real.log_lt_log (by positivity)
  have : ((Spec.columnCount X.entries c + 1 : Nat) : ℝ) < (X.nrows : ℝ) := by exact_mod_cast h
  push_cast at this
  linarith

/-- The ratings as TF-IDF weights: root of the rating times the user's idf. -/
noncomputable def tfidfRows (n : Nat) (counts : SpRows ℝ) : SpRows ℝ :=
  counts.map fun row => row.map fun e =>
    (e.1, Real.sqrt e.2 * (Real.log n - Real.log (1 + row.length)))

theorem columnCount_zipIdx (M : SpRows ℝ) : ∀ (k u : Nat),
    Spec.columnCount ((M.zipIdx k).flatMap fun p => p.1.map fun e => (e.1, p.2, e.2)) u =
      if k ≤ u then (M.getD (u - k) []).length else 0 := by
  induction M with
  | nil => intro k u; simp [Spec.columnCount]
  | cons row M ih =>
    intro k u
    have happ : ∀ a b : List (Nat × Nat × ℝ), Spec.columnCount (a ++ b) u =
        Spec.columnCount a u + Spec.columnCount b u := by
      intro a b; unfold Spec.columnCount; simp
    have h1 : Spec.columnCount (row.map fun e => (e.1, k, e.2)) u = if k = u then row.length else 0 := by
      unfold Spec.columnCount
      rw [List.filter_map, List.length_map]
      by_cases h : k = u
      · subst h; rw [if_pos rfl]; congr 1; rw [List.filter_eq_self]; intro e _; simp
      · rw [if_neg h, List.length_eq_zero_iff, List.filter_eq_nil_iff]; intro e _; simp [h]
    rw [List.zipIdx_cons, List.flatMap_cons, happ, ih, h1]
    rcases Nat.lt_trichotomy u k with h | h | h
    · rw [if_neg (by omega), if_neg (by omega), if_neg (by omega)]
    · subst h; rw [if_pos rfl, if_neg (by omega), if_pos le_rfl, Nat.sub_self]; rfl
    · rw [if_neg (by omega), if_pos (by omega), if_pos (by omega), Nat.zero_add]
      obtain ⟨d, rfl⟩ : ∃ d, u = k + 1 + d := ⟨u - (k + 1), by omega⟩
      rw [show k + 1 + d - (k + 1) = d by omega, show k + 1 + d - k = d + 1 by omega]
      rfl

theorem idf_itemUser (n : Nat) (counts : SpRows ℝ) (u : Nat) :
    idf (itemUser n counts) u = Real.log n - Real.log (1 + (counts.getD u []).length) := by
  rw [idf_eq]
  have : Spec.columnCount (itemUser n counts).entries u = (counts.getD u []).length := by
    unfold itemUser
    simp only
    rw [columnCount_zipIdx counts 0 u, if_pos (Nat.zero_le _), Nat.sub_zero]
  rw [this]
  rfl

theorem tfidfRows_eq (n : Nat) (counts : SpRows ℝ) :
    weightRows (fun _ u v => Real.sqrt v * idf (itemUser n counts) u) counts = tfidfRows n counts := by
  unfold weightRows tfidfRows
  apply List.ext_getElem?
  intro u
  rw [List.getElem?_map, List.getElem?_map, List.getElem?_zipIdx]
  cases h : counts[u]? with
  | none => rfl
  | some row =>
    have hg : counts.getD u [] = row := by rw [List.getD_eq_getElem?_getD, h]; rfl
    simp only [Option.map_some, Nat.zero_add, idf_itemUser, hg]

/-- **C29** (`TFIDFRecommender`; partial: row 0 see C23; every user has rated fewer than `n - 1` items, so
that no weight is zero).  After `fit` the row of item `i` holds the `K` items with the greatest cosine of
the TF-IDF vectors. -/
theorem C29_tfidf_partial (H : HeapImpl (ℝ × Nat) pairLt) (n K : Nat) (hK : 1 ≤ K)
    (hnK : n * K ≤ 2 ^ 31) (counts : SpRows ℝ) (hnd : ∀ row ∈ counts, (row.map Prod.fst).Nodup)
    (hM : ∀ r ∈ counts, ∀ e ∈ r, e.1 < n) (_hz : ∀ r ∈ counts, ∀ e ∈ r, 0 < e.2)
    (_hu : ∀ r ∈ counts, r.length + 1 < n) :
    ∃ sim, tfidfFit H n K counts false = .ok sim ∧ sim.length = n ∧
      ∀ i, 0 < i → i < n → ∃ row out, sim[i]? = some row ∧ (∀ p, p ∈ row ↔ p ∈ out) ∧
        Spec.IsRanking K (Spec.CoRated counts i) (fun j => some (Spec.cosine
          (Spec.column (tfidfRows n counts) i) (Spec.column (tfidfRows n counts) j))) out := by
  have := normalized_fit H n K hK hnK (fun _ u v => Real.sqrt v * idf (itemUser n counts) u) counts
    hnd hM
  rw [tfidfRows_eq] at this
  exact this

/-- **C29** (TF-IDF, partial).  Positive ratings of users with fewer than `n - 1` ratings get positive
weights, which grow with the rating.  Missing: users with `n - 1` ratings, see `C29_idf_violated`. -/
theorem C29_tfidf_positive_partial (X : Coo) (k i u : Nat) (x : ℝ) (hk : X.entries[k]? = some (i, u, x))
    (hx : 0 < x) (hu : Spec.columnCount X.entries u + 1 < X.nrows) :
    ∃ w, (tfidfWeight X).entries[k]? = some (i, u, w) ∧ 0 < w ∧
      ∀ x', x < x' → ∃ w', (tfidfWeight { X with entries := X.entries.set k (i, u, x') }).entries[k]? =
        some (i, u, w') ∧ w < w' := by
  have hidf := idf_pos hu
  refine ⟨Real.sqrt x * idf X u, ?_, mul_pos (Real.sqrt_pos.mpr hx) hidf, fun x' hx' =>
    ⟨Real.sqrt x' * idf X u, ?_, mul_lt_mul_of_pos_right (Real.sqrt_lt_sqrt hx.le hx') hidf⟩⟩
  · unfold tfidfWeight
    simp only [List.getElem?_map, hk, Option.map_some]
  · have hlt := (List.getElem?_eq_some_iff.mp hk).1
    have hcol : ((X.entries.set k (i, u, x')).map fun e => e.2.1) = X.entries.map fun e => e.2.1 := by
      rw [List.map_set]
      apply List.ext_getElem?
      intro m
      rw [List.getElem?_set]
      by_cases hm : k = m
      · subst hm
        have := (List.getElem?_eq_some_iff.mp hk).2
        simp [hlt, this]
      · simp [hm]
    have hi : ∀ c, idf { X with entries := X.entries.set k (i, u, x') } c = idf X c := by
      intro c; unfold idf; simp only [hcol]
    unfold tfidfWeight
    simp only [List.getElem?_map, List.getElem?_set_self hlt, Option.map_some, hi]

/-! ## BM25 -/

theorem bincountW_set {es : List (Nat × Nat × ℝ)} (x' : ℝ) : ∀ {k i u : Nat} {x : ℝ},
    es[k]? = some (i, u, x) → ∀ r : Nat,
    bincountW ((es.set k (i, u, x')).map fun e => (e.1, e.2.2)) r =
      bincountW (es.map fun e => (e.1, e.2.2)) r + if i = r then x' - x else 0 := by
  induction es with
  | nil => intro k i u x hk; simp at hk
  | cons e es ih =>
    intro k i u x hk r
    have hcons : ∀ (a : Nat × ℝ) (l : List (Nat × ℝ)), bincountW (a :: l) r =
        (if a.1 = r then a.2 else 0) + bincountW l r := by
      intro a l
      rw [bincountW_eq_sumAt, bincountW_eq_sumAt]
      rfl
    cases k with
    | zero =>
      simp only [List.getElem?_cons_zero, Option.some.injEq] at hk
      subst hk
      simp only [List.set_cons_zero, List.map_cons, hcons]
      by_cases h : i = r
      · simp only [h, if_true]; ring
      · simp [h]
    | succ k =>
      simp only [List.getElem?_cons_succ] at hk
      simp only [List.set_cons_succ, List.map_cons, hcons, ih hk]
      ring

theorem rowSum_nonneg {X : Coo} (h : ∀ e ∈ X.entries, 0 ≤ e.2.2) (r : Nat) : 0 ≤ rowSum X r := by
  unfold rowSum bincountW
  refine List.sum_nonneg fun x hx => ?_
  obtain ⟨y, hy, rfl⟩ := List.mem_map.mp hx
  obtain ⟨z, hz, rfl⟩ := List.mem_map.mp (List.mem_filter.mp hy).1
  exact h z hz

/-- The value of an entry is at most its row's sum. -/
theorem le_rowSum {X : Coo} (h : ∀ e ∈ X.entries, 0 ≤ e.2.2) {e : Nat × Nat × ℝ}
    (he : e ∈ X.entries) : e.2.2 ≤ rowSum X e.1 := by
  unfold rowSum bincountW
  refine List.single_le_sum ?_ _ (List.mem_map.mpr ⟨(e.1, e.2.2), List.mem_filter.mpr
    ⟨List.mem_map.mpr ⟨e, he, rfl⟩, by simp⟩, rfl⟩)
  intro x hx
  obtain ⟨y, hy, rfl⟩ := List.mem_map.mp hx
  obtain ⟨z, hz, rfl⟩ := List.mem_map.mp (List.mem_filter.mp hy).1
  exact h z hz

theorem rowSum_le_total {X : Coo} (h : ∀ e ∈ X.entries, 0 ≤ e.2.2) {r : Nat} (hr : r < X.nrows) :
    rowSum X r ≤ ((List.range X.nrows).map (rowSum X)).sum := by
  refine List.single_le_sum ?_ _ (List.mem_map.mpr ⟨r, List.mem_range.mpr hr, rfl⟩)
  intro x hx
  obtain ⟨y, -, rfl⟩ := List.mem_map.mp hx
  exact rowSum_nonneg h y

theorem sum_range_single (n i : Nat) (hi : i < n) (d : ℝ) :
    ((List.range n).map fun r => if i = r then d else 0).sum = d := by
  induction n with
  | zero => omega
  | succ n ih =>
    rw [List.range_succ, List.map_append, List.sum_append]
    rcases Nat.lt_or_ge i n with h | h
    · rw [ih h]; simp; intro h'; omega
    · have : i = n := by omega
      subst this
      have : ((List.range i).map fun r => if i = r then d else 0).sum = 0 := by
        apply List.sum_eq_zero
        intro x hx
        obtain ⟨r, hr, rfl⟩ := List.mem_map.mp hx
        rw [if_neg (by have := List.mem_range.mp hr; omega)]
      rw [this]; simp

/-- The BM25 weight of an entry `x` of a row with sum `r` in a matrix with total `T` and `n` rows. -/
noncomputable def bm25Value (K1 B n r T x w : ℝ) : ℝ :=
  x * (K1 + 1) / (K1 * ((1 - B) + B * r / (T / n)) + x) * w

theorem bm25Value_lt {K1 B n r T x x' w : ℝ} (hK : 0 < K1) (hB0 : 0 ≤ B) (hB1 : B ≤ 1) (hn : 0 < n)
    (hr : x ≤ r) (hT : r ≤ T) (hx : 0 < x) (hx' : x < x') (hw : 0 < w) :
    bm25Value K1 B n r T x w < bm25Value K1 B n (r + (x' - x)) (T + (x' - x)) x' w := by
  unfold bm25Value
  have hTp : 0 < T := by linarith
  have hT' : 0 < T + (x' - x) := by linarith
  refine mul_lt_mul_of_pos_right ?_ hw
  have hL : 0 ≤ (1 - B) + B * r / (T / n) := by
    have : 0 ≤ B * r / (T / n) := by
      apply div_nonneg (mul_nonneg hB0 (by linarith)) (by positivity)
    linarith
  have hL' : 0 ≤ (1 - B) + B * (r + (x' - x)) / ((T + (x' - x)) / n) := by
    have : 0 ≤ B * (r + (x' - x)) / ((T + (x' - x)) / n) := by
      apply div_nonneg (mul_nonneg hB0 (by linarith)) (by positivity)
    linarith
  have hx0 : 0 < x' := by linarith
  rw [div_lt_div_iff₀ (by positivity) (by positivity)]
  -- K1 * (K1+1) * (x * L' - x' * L) < 0
  have key : x * ((1 - B) + B * (r + (x' - x)) / ((T + (x' - x)) / n)) <
      x' * ((1 - B) + B * r / (T / n)) := by
    have e1 : B * (r + (x' - x)) / ((T + (x' - x)) / n) = (B * n) * ((r + (x' - x)) / (T + (x' - x))) := by
      field_simp
    have e2 : B * r / (T / n) = (B * n) * (r / T) := by field_simp
    rw [e1, e2]
    have h3 : x * ((r + (x' - x)) / (T + (x' - x))) < x' * (r / T) := by
      rw [mul_div_assoc', mul_div_assoc', div_lt_div_iff₀ hT' hTp]
      nlinarith [mul_pos (sub_pos.mpr hx') hx, mul_nonneg (sub_nonneg.mpr hr) (sub_nonneg.mpr hT),
        mul_pos hx hx0, mul_nonneg (sub_nonneg.mpr hr) hTp.le, mul_pos (sub_pos.mpr hx') hTp,
        mul_nonneg (mul_nonneg (sub_nonneg.mpr hr) hTp.le) (sub_pos.mpr hx').le,
        mul_pos (mul_pos (sub_pos.mpr hx') hx) (sub_pos.mpr hx'),
        mul_nonneg (mul_nonneg (sub_nonneg.mpr hr) hx.le) (sub_pos.mpr hx').le,
        mul_nonneg (mul_nonneg (sub_nonneg.mpr hr) (sub_pos.mpr hx').le) (sub_pos.mpr hx').le,
        mul_nonneg (mul_nonneg (sub_nonneg.mpr hT) hx.le) (sub_pos.mpr hx').le]
    rcases eq_or_lt_of_le hB1 with hB | hB
    · rw [hB]
      have := mul_lt_mul_of_pos_left h3 hn
      nlinarith
    · have h4 : x * (1 - B) < x' * (1 - B) := mul_lt_mul_of_pos_right hx' (by linarith)
      have h5 := mul_le_mul_of_nonneg_left h3.le (mul_nonneg hB0 hn.le)
      nlinarith
  have hK1 : 0 < K1 + 1 := by linarith
  nlinarith [mul_lt_mul_of_pos_left key (mul_pos hK1 hK)]

/-- **C29** (BM25, partial).  With non-negative ratings, `0 ≤ B ≤ 1`, `K1 > 0`: a positive rating of a user
with fewer than `n - 1` ratings gets a positive weight, and raising the rating (which also changes the
row sum and the average length) raises the weight.  Missing: users with `n - 1` ratings, see
`C29_idf_violated`. -/
theorem C29_bm25_positive_partial (K1 B : ℝ) (hK : 0 < K1) (hB0 : 0 ≤ B) (hB1 : B ≤ 1) (X : Coo)
    (hpos : ∀ e ∈ X.entries, 0 ≤ e.2.2) (k i u : Nat) (x : ℝ) (hk : X.entries[k]? = some (i, u, x))
    (hi : i < X.nrows) (hx : 0 < x) (hu : Spec.columnCount X.entries u + 1 < X.nrows) :
    ∃ w, (bm25Weight K1 B X).entries[k]? = some (i, u, w) ∧ 0 < w ∧
      ∀ x', x < x' → ∃ w', (bm25Weight K1 B { X with entries := X.entries.set k (i, u, x') }).entries[k]? =
        some (i, u, w') ∧ w < w' := by
  have hidf := idf_pos hu
  have hmem := List.mem_of_getElem? hk
  have hlt := (List.getElem?_eq_some_iff.mp hk).1
  have hr := le_rowSum hpos hmem
  have hT := rowSum_le_total hpos hi
  have hn : (0 : ℝ) < X.nrows := by exact_mod_cast Nat.lt_of_le_of_lt (Nat.zero_le _) hi
  refine ⟨bm25Value K1 B X.nrows (rowSum X i) ((List.range X.nrows).map (rowSum X)).sum x (idf X u),
    ?_, ?_, fun x' hx' => ⟨bm25Value K1 B X.nrows (rowSum X i + (x' - x))
      (((List.range X.nrows).map (rowSum X)).sum + (x' - x)) x' (idf X u), ?_,
      bm25Value_lt hK hB0 hB1 hn hr hT hx hx' hidf⟩⟩
  · unfold bm25Weight
    simp only [List.getElem?_map, hk, Option.map_some]
    rfl
  · have hr : x ≤ rowSum X i := hr
    have h0 : 0 ≤ B * rowSum X i / (((List.range X.nrows).map (rowSum X)).sum / X.nrows) :=
      div_nonneg (mul_nonneg hB0 (by linarith)) (div_nonneg (by linarith) hn.le)
    have h1 : 0 ≤ K1 * ((1 - B) + B * rowSum X i / (((List.range X.nrows).map (rowSum X)).sum / X.nrows)) :=
      mul_nonneg hK.le (by linarith)
    unfold bm25Value
    exact mul_pos (div_pos (mul_pos hx (by linarith)) (by linarith)) hidf
  · have hcol : ((X.entries.set k (i, u, x')).map fun e => e.2.1) = X.entries.map fun e => e.2.1 := by
      rw [List.map_set]
      apply List.ext_getElem?
      intro m
      rw [List.getElem?_set]
      by_cases hm : k = m
      · subst hm
        have := (List.getElem?_eq_some_iff.mp hk).2
        simp [hlt, this]
      · simp [hm]
    have hidf' : ∀ c, idf { X with entries := X.entries.set k (i, u, x') } c = idf X c := by
      intro c; unfold idf; simp only [hcol]
    have hrs : ∀ r, rowSum { X with entries := X.entries.set k (i, u, x') } r =
        rowSum X r + if i = r then x' - x else 0 := by
      intro r; unfold rowSum; exact bincountW_set x' hk r
    have htot : ((List.range X.nrows).map
        (rowSum { X with entries := X.entries.set k (i, u, x') })).sum =
        ((List.range X.nrows).map (rowSum X)).sum + (x' - x) := by
      rw [← sum_range_single X.nrows i hi (x' - x), ← List.sum_map_add]
      congr 1
      exact List.map_congr_left fun r _ => hrs r
    unfold bm25Weight
    simp only [List.getElem?_map, List.getElem?_set_self hlt, Option.map_some, hidf']
    unfold lengthNorm averageLength
    simp only [htot, hrs, if_true]
    rfl

/-- **C29** (`BM25Recommender`; partial: row 0 see C23).  After `fit` the row of item `i` holds the `K`
items with the greatest inner product of the BM25 weights. -/
theorem C29_bm25_partial (H : HeapImpl (ℝ × Nat) pairLt) (n K : Nat) (hK : 1 ≤ K)
    (hnK : n * K ≤ 2 ^ 31) (K1 B : ℝ) (counts : SpRows ℝ) (hM : ∀ r ∈ counts, ∀ e ∈ r, e.1 < n) :
    let w := fun i u v => v * (K1 + 1) / (K1 * lengthNorm B (itemUser n counts) i + v) *
      (Real.log n - Real.log (1 + (counts.getD u []).length))
    ∃ sim, bm25Fit H n K K1 B counts false = .ok sim ∧ sim.length = n ∧
      ∀ i, 0 < i → i < n → ∃ row out, sim[i]? = some row ∧ (∀ p, p ∈ row ↔ p ∈ out) ∧
        Spec.IsRanking K (Spec.CoRated counts i)
          (fun j => some (Spec.similarity (weightRows w counts) i j)) out := by
  intro w
  have hrows : userRows counts.length (bm25Weight K1 B (itemUser n counts)) =
      (weightRows w counts).map coalesce := by
    rw [← userRows_eq n w counts]
    unfold bm25Weight
    simp only [idf_itemUser]
    rfl
  have hbound : ∀ r ∈ (weightRows w counts).map coalesce, ∀ e ∈ r, e.1 < n := by
    intro r hr e he
    obtain ⟨d, hd, rfl⟩ := List.mem_map.mp hr
    obtain ⟨v, hv⟩ := (stored_coalesce d e.1).mp ⟨e.2, he⟩
    obtain ⟨⟨r, u⟩, hp, rfl⟩ := List.mem_map.mp hd
    obtain ⟨y, hy, hye⟩ := List.mem_map.mp hv
    have hy1 : y.1 = e.1 := (Prod.mk.inj hye).1
    rw [← hy1]
    exact hM r (List.mem_of_getElem? (List.mem_zipIdx_iff_getElem?.mp hp)) y hy
  obtain ⟨sim, e, hl, h⟩ := C23_rows_partial H n K hK hnK _ hbound
  refine ⟨sim, by unfold bm25Fit; rw [hrows]; exact e, hl, fun i h0 hi => ?_⟩
  obtain ⟨row, out, h1, -, h3, h4⟩ := h i hi
  refine ⟨row, out, h1, h4 (Or.inl (by omega)), ?_⟩
  have hco : Spec.CoRated ((weightRows w counts).map coalesce) i = Spec.CoRated counts i := by
    funext j
    rw [coRated_coalesce, coRated_weight]
  have hsc : (fun j => some (Spec.similarity ((weightRows w counts).map coalesce) i j)) = fun j =>
      some (Spec.similarity (weightRows w counts) i j) := by
    funext j
    rw [similarity_coalesce]
  rw [← hco, ← hsc]
  exact h3

/-- **C29 is violated** for users with `n - 1` of `n` items: `idf = log n - log(1 + (n-1)) = 0`.  Here a
user who rated one of two items: the TF-IDF and BM25 weights of their only rating are 0, and the
following `normalize` divides 0 by the row length 0. -/
theorem C29_idf_violated :
    let X : Coo := itemUser 2 [[(0, 1)]]
    X.entries = [(0, 0, 1)] ∧ (tfidfWeight X).entries = [(0, 0, 0)] ∧
      (bm25Weight 1.2 0.75 X).entries = [(0, 0, 0)] ∧
      Spec.rowSquares (tfidfWeight X).entries 0 = 0 := by
  have hidf : idf (itemUser 2 [[(0, 1)]]) 0 = 0 := by
    rw [idf_itemUser]
    norm_num
  have he : (itemUser 2 [[(0, 1)]]).entries = [(0, 0, 1)] := by simp [itemUser]
  have h1 : (tfidfWeight (itemUser 2 [[(0, 1)]])).entries = [(0, 0, 0)] := by
    unfold tfidfWeight
    simp [he, hidf]
  refine ⟨he, h1, ?_, ?_⟩
  · unfold bm25Weight
    simp [he, hidf]
  · rw [h1]; simp [Spec.rowSquares]

/-- A user who rated all of three items: the weights are negative. -/
theorem C29_negative_idf :
    ∃ w, (tfidfWeight (itemUser 3 [[(0, 1), (1, 1), (2, 1)]])).entries[0]? = some (0, 0, w) ∧ w < 0 := by
  refine ⟨Real.log 3 - Real.log 4, ?_, ?_⟩
  · have he : (itemUser 3 [[(0, 1), (1, 1), (2, 1)]]).entries = [(0, 0, 1), (1, 0, 1), (2, 0, 1)] := by
      simp [itemUser]
    have hidf := idf_itemUser 3 [[(0, 1), (1, 1), (2, 1)]] 0
    unfold tfidfWeight
    simp only [he, List.map_cons, List.getElem?_cons_zero, hidf]
    norm_num
  · have := Real.log_lt_log (by norm_num : (0 : ℝ) < 3) (by norm_num : (3 : ℝ) < 4)
    linarith

/-- The hypotheses of the partial theorems hold for a matrix with two users and four items. -/
example :
    let counts : SpRows ℝ := [[(0, 1), (1, 2)], [(1, 4)]]
    (∀ row ∈ counts, (row.map Prod.fst).Nodup) ∧ (∀ r ∈ counts, ∀ e ∈ r, e.1 < 4) ∧
      (∀ r ∈ counts, ∀ e ∈ r, 0 < e.2) ∧ (∀ r ∈ counts, r.length + 1 < 4) ∧
      (itemUser 4 counts).entries[2]? = some (1, 1, 4) ∧
      Spec.columnCount (itemUser 4 counts).entries 1 + 1 < 4 ∧
      Spec.cosine (Spec.column counts 0) (Spec.column counts 0) = 1 := by
  intro counts
  refine ⟨?_, ?_, ?_, ?_, by simp [counts, itemUser], by simp [counts, itemUser, Spec.columnCount],
    (C29_range counts 0 0).2 ⟨[(0, 1), (1, 2)], by simp [counts], by simp [Spec.cell, Spec.sumAt]⟩⟩
  · intro row hrow; simp only [counts, List.mem_cons, List.not_mem_nil, or_false] at hrow
    rcases hrow with rfl | rfl <;> simp
  · intro r hr e he
    simp only [counts, List.mem_cons, List.not_mem_nil, or_false] at hr
    rcases hr with rfl | rfl <;> simp only [List.mem_cons, List.not_mem_nil, or_false] at he
    · rcases he with rfl | rfl <;> norm_num
    · subst he; norm_num
  · intro r hr e he
    simp only [counts, List.mem_cons, List.not_mem_nil, or_false] at hr
    rcases hr with rfl | rfl <;> simp only [List.mem_cons, List.not_mem_nil, or_false] at he
    · rcases he with rfl | rfl <;> norm_num
    · subst he; norm_num
  · intro r hr
    simp only [counts, List.mem_cons, List.not_mem_nil, or_false] at hr
    rcases hr with rfl | rfl <;> simp

end Implicit
