import Verif.Lemmas.RoundKnn
import Verif.Props.C23
import Verif.Props.C29
import Verif.Props.C62
/-!
# C83 — item-item models in floating point

`C23`, `C22` and `C29` are about exact arithmetic; here every product, sum, square root and quotient is rounded.
-/

set_option linter.unusedSectionVars false

namespace Implicit

section
variable {R : Type} [LinearOrder R] [Field R]

/-- The complete description of the similarity matrix computed in floating point. -/
theorem roundFit_rows (H : HeapImpl (R × Nat) pairLt) (r : Rounding R) (n K : Nat) (hK : 1 ≤ K)
    (hnK : n * K ≤ 2 ^ 31) (M : SpRows R) (hM : ∀ r ∈ M, ∀ e ∈ r, e.1 < n) :
    ∃ sim, roundKnnFit H r n K M = .ok sim ∧ sim.length = n ∧
      ∀ i < n, ∃ row out, sim[i]? = some row ∧ (row.map Prod.fst).Pairwise (· < ·) ∧
        Spec.IsRanking K (Spec.CoRated M i) (fun j => some (roundSum r (colPairs M i j))) out ∧
        ∀ p, p ∈ row ↔ p ∈ out ∨
          (i = 0 ∧ p = (0, 0) ∧ 0 ∉ out.map Prod.fst ∧ ∃ i' < n, Spec.Few M K i') := by
  set g : Nat → List (R × Nat) := fun i => roundHeap H r n K M (colOf n M i) with hgdef
  have hg : ∀ i < n, Spec.IsRanking K (Spec.CoRated M i) (fun j => some (roundSum r (colPairs M i j)))
      ((H.sort (g i)).map Prod.swap) ∧ (H.sort (g i)).Perm (g i) := by
    intro i hi
    obtain ⟨h, e1, hl, hrank, hp⟩ := roundRow_ok H r hK M hM _ (colOf_bound M hi)
    have hh : g i = h := by rw [hgdef]; unfold roundHeap; simp only [e1]
    rw [hh]
    refine ⟨?_, hp⟩
    have e2 : Spec.Reachable M (colOf n M i) = Spec.CoRated M i :=
      funext fun j => propext (transpose_reachable (colOf_get M hi) j)
    have e3 : (fun j => some (roundSum r (pairsAt M (colOf n M i) j))) =
        fun j => some (roundSum r (colPairs M i j)) := funext fun j => by rw [pairsAt_col M hi]
    rw [← e2, ← e3]; exact hrank
  have hfst : ∀ l : List (R × Nat), (l.map Prod.swap).map Prod.fst = l.map Prod.snd := fun l => by
    rw [List.map_map]; rfl
  have hfew : ∀ i < n, ((g i).length < K ↔ Spec.Few M K i) := by
    intro i hi
    obtain ⟨hrank, hp⟩ := hg i hi
    constructor
    · intro hlt l hnd hl
      have hsub : l ⊆ (H.sort (g i)).map Prod.snd := by
        intro j hj
        have := hrank.complete (by rw [List.length_map, hp.length_eq]; exact hlt) j (hl j hj)
        rwa [hfst] at this
      have := (hnd.subperm hsub).length_le
      rw [List.length_map, hp.length_eq] at this
      omega
    · intro hf
      have := hf ((H.sort (g i)).map Prod.snd) (by rw [← hfst]; exact hrank.distinct) (by
        intro j hj
        rw [← hfst] at hj
        obtain ⟨p, hp', rfl⟩ := List.mem_map.mp hj
        exact (hrank.mem p hp').1)
      rwa [List.length_map, hp.length_eq] at this
  refine ⟨_, roundKnnFit_eq H r hK hnK M hM, by simp [cooToCsr], ?_⟩
  intro i hi
  obtain ⟨hrank, hp⟩ := hg i hi
  refine ⟨_, (H.sort (g i)).map Prod.swap, by
    unfold cooToCsr
    rw [List.getElem?_map, List.getElem?_range hi]
    rfl, coalesce_sorted _, hrank, ?_⟩
  rintro ⟨c, v⟩
  have hnd : ((g i).map Prod.snd).Nodup := by
    have := hrank.distinct
    rw [hfst] at this
    exact (hp.map _).nodup_iff.mp this
  refine (mem_knn_row hi g hnd c v).trans ?_
  rw [hfst]
  have h1 : (v, c) ∈ g i ↔ (c, v) ∈ (H.sort (g i)).map Prod.swap := by
    rw [← hp.mem_iff]
    constructor
    · intro h; exact List.mem_map.mpr ⟨_, h, rfl⟩
    · intro h
      obtain ⟨x, hx, he⟩ := List.mem_map.mp h
      have : x = (v, c) := by rw [← Prod.swap_swap x, he]; rfl
      rwa [← this]
  rw [h1]
  refine or_congr Iff.rfl ?_
  constructor
  · rintro ⟨rfl, rfl, rfl, h0, i', hi', hlt⟩
    exact ⟨rfl, rfl, fun h => h0 ((hp.map _).mem_iff.mp h), i', hi', (hfew i' hi').mp hlt⟩
  · rintro ⟨rfl, he, h0, i', hi', hlt⟩
    simp only [Prod.mk.injEq] at he
    exact ⟨rfl, he.1, he.2, fun h => h0 ((hp.map _).mem_iff.mpr h), i', hi', (hfew i' hi').mpr hlt⟩

/-- What is needed outside row 0. -/
theorem roundFit_row {r : Rounding R} {H : HeapImpl (R × Nat) pairLt} {n K : Nat} (hK : 1 ≤ K)
    (hnK : n * K ≤ 2 ^ 31) {M : SpRows R} (hM : ∀ r ∈ M, ∀ e ∈ r, e.1 < n) {sim : SpRows R}
    (hs : roundKnnFit H r n K M = .ok sim) {i : Nat} {row : List (Nat × R)} (hrow : sim[i]? = some row) {j : Nat} {v : R}
    (hv : (j, v) ∈ row) : v = roundSum r (colPairs M i j) ∨ (i = 0 ∧ j = 0 ∧ (row.map Prod.fst).Pairwise (· < ·)) := by
  obtain ⟨sim', e, hl, h⟩ := roundFit_rows H r n K hK hnK M hM
  rw [hs] at e
  cases e
  have hi : i < n := by
    rw [← hl]; exact (List.getElem?_eq_some_iff.mp hrow).1
  obtain ⟨row', out, h1, h2, h3, h4⟩ := h i hi
  rw [hrow] at h1
  cases h1
  rcases (h4 _).mp hv with hp | ⟨h0, he, -⟩
  · left
    have := (h3.mem _ hp).2
    simpa using this.symm
  · right
    exact ⟨h0, (Prod.mk.inj he).1, h2⟩

/-- **C83** (symmetry).  Similarities are symmetric to the last bit: where item `j` is listed for `i` and `i` for `j`, the two
numbers are equal. -/
theorem C83_symmetric (H : HeapImpl (R × Nat) pairLt) (r : Rounding R) (n K : Nat) (hK : 1 ≤ K)
    (hnK : n * K ≤ 2 ^ 31) (M : SpRows R) (hnd : ∀ row ∈ M, (row.map Prod.fst).Nodup) (hM : ∀ r ∈ M, ∀ e ∈ r, e.1 < n)
    (sim : SpRows R) (hs : roundKnnFit H r n K M = .ok sim) (i j : Nat) (ri rj : List (Nat × R)) (hi : sim[i]? = some ri)
    (hj : sim[j]? = some rj) (v w : R) (hv : (j, v) ∈ ri) (hw : (i, w) ∈ rj) : v = w := by
  rcases roundFit_row hK hnK hM hs hi hv with h1 | ⟨h0, h0', hp⟩
  · rcases roundFit_row hK hnK hM hs hj hw with h2 | ⟨h0, h0', hp⟩
    · rw [h1, h2, colPairs_swap hnd j i, roundSum_swap]
    · subst h0; subst h0'
      rw [hi] at hj
      cases hj
      have := List.inj_on_of_nodup_map (hp.imp fun h => Nat.ne_of_lt h) hv hw rfl
      exact (Prod.mk.inj this).2
  · subst h0; subst h0'
    rw [hi] at hj
    cases hj
    have := List.inj_on_of_nodup_map (hp.imp fun h => Nat.ne_of_lt h) hv hw rfl
    exact (Prod.mk.inj this).2

end

section
variable {R : Type} [LinearOrder R] [Field R] [IsStrictOrderedRing R]

/-- **C83** (`fit`; partial: row 0 may have one more entry, see C23).  For every rounding, the row of item `i` lists, with columns
ascending, `K` items with a user in common (all of them if there are fewer), similarities off by no more than the error of a sum
with one product per common user, and no item instead of another that is better by more than the two errors. -/
theorem C83_fit_partial (H : HeapImpl (R × Nat) pairLt) (r : Rounding R) (n K : Nat) (hK : 1 ≤ K)
    (hnK : n * K ≤ 2 ^ 31) (M : SpRows R) (hnd : ∀ row ∈ M, (row.map Prod.fst).Nodup) (hM : ∀ r ∈ M, ∀ e ∈ r, e.1 < n) :
    ∃ sim, roundKnnFit H r n K M = .ok sim ∧ sim.length = n ∧
      ∀ i < n, ∃ row out, sim[i]? = some row ∧ (row.map Prod.fst).Pairwise (· < ·) ∧
        Spec.ApproxRanking K (Spec.CoRated M i) (Spec.similarity M i)
          (fun j => Spec.sumError r.u r.η (Spec.coRaters M i j) (Spec.similarityMass M i j)) out ∧
        (i ≠ 0 ∨ 0 ∈ out.map Prod.fst ∨ (∀ i' < n, ¬ Spec.Few M K i') → ∀ p, p ∈ row ↔ p ∈ out) := by
  obtain ⟨sim, e, hlen, h⟩ := roundFit_rows H r n K hK hnK M hM
  refine ⟨sim, e, hlen, fun i hi => ?_⟩
  obtain ⟨row, out, h1, h2, h3, h4⟩ := h i hi
  refine ⟨row, out, h1, h2, approx_of_ranking h3 fun j _ => similarity_error r hnd i j, fun hc p => (h4 p).trans ⟨?_, Or.inl⟩⟩
  rintro (hp | ⟨h0, -, hn, i', hi', hf⟩)
  · exact hp
  · rcases hc with hc | hc | hc
    · exact absurd h0 hc
    · exact absurd hc hn
    · exact absurd hf (hc i' hi')

/-- **C83** (`recommend`).  The scorer leaves its accumulator clean and returns the best `K` of the neighbours of the user's items,
scores off by no more than the error of a sum with one product per item that has the neighbour; liked items, if they are
to be removed, get score `0` exactly. -/
theorem C83_recommend (H : HeapImpl (R × Nat) pairLt) (r : Rounding R) (sim : SpRows R) (hsim : SquareRows sim)
    (hnd : ∀ row ∈ sim, (row.map Prod.fst).Nodup) (row : List (Nat × R)) (hrow : ∀ e ∈ row, e.1 < sim.length) (K : Nat)
    (hK : 1 ≤ K) (rm : Bool) :
    ∃ out, roundScorer H r sim (Accum.new sim.length) row K rm = .ok (out, Accum.new sim.length) ∧
      Spec.ApproxRanking K (Spec.Reachable sim row) (knnScore sim row rm)
        (fun j => if rm = true ∧ j ∈ row.map Prod.fst then 0
          else Spec.sumError r.u r.η (Spec.scoreTerms sim row j) (Spec.itemMass sim row j)) out := by
  obtain ⟨out, e, h⟩ := roundScorer_ok H r sim hsim row hrow K hK rm
  refine ⟨out, e, approx_of_ranking h fun j _ => ?_⟩
  unfold knnScore
  by_cases hc : rm = true ∧ j ∈ row.map Prod.fst
  · simp [hc]
  · rw [if_neg hc, if_neg hc, if_neg hc]
    exact itemScore_error r hnd row j

end

/-! ## Whole numbers -/

/-- Integers up to `B` are floats. -/
def Rounding.ExactUpTo {R : Type} [LinearOrder R] [Field R] (r : Rounding R) (B : Nat) : Prop :=
  ∀ k : Int, k.natAbs ≤ B → r.rnd (k : R) = k

section
variable {R : Type} [LinearOrder R] [Field R] [IsStrictOrderedRing R]

theorem roundSum_int (r : Rounding R) {B : Nat} (hB : r.ExactUpTo B) (ps : List (R × R))
    (hz : ∀ p ∈ ps, ∃ a b : Int, p = ((a : R), (b : R))) (h : (ps.map fun p => |p.1 * p.2|).sum ≤ B) :
    roundSum r ps = (ps.map fun p => p.1 * p.2).sum := by
  suffices hs : ∃ k : Int, (ps.map fun p => p.1 * p.2).sum = k ∧ roundSum r ps = k ∧ |(k : R)| ≤ (ps.map fun p => |p.1 * p.2|).sum by
    obtain ⟨k, h1, h2, -⟩ := hs
    rw [h1, h2]
  have hnat : ∀ k : Int, |(k : R)| ≤ B → k.natAbs ≤ B := by
    intro k hk
    rw [← Int.cast_abs, Int.abs_eq_natAbs] at hk
    exact_mod_cast hk
  induction ps using List.reverseRecOn with
  | nil => exact ⟨0, by simp, by simp [roundSum], by simp⟩
  | append_singleton ps p ih =>
    simp only [List.map_append, List.map_cons, List.map_nil, List.sum_append, List.sum_cons, List.sum_nil, add_zero] at h ⊢
    have h0 := abs_nonneg (p.1 * p.2)
    obtain ⟨k, ih1, ih2, ih3⟩ := ih (fun q hq => hz q (by simp [hq])) (by linarith)
    obtain ⟨a, b, hab⟩ := hz p (by simp)
    have hstep : roundSum r (ps ++ [p]) = r.rnd (roundSum r ps + r.rnd (p.1 * p.2)) := by
      unfold roundSum; simp
    have hp : p.1 * p.2 = ((a * b : Int) : R) := by rw [hab]; push_cast; rfl
    have hm : 0 ≤ (ps.map fun p => |p.1 * p.2|).sum := (abs_nonneg _).trans ih3
    have hk : |((k + a * b : Int) : R)| ≤ (ps.map fun p => |p.1 * p.2|).sum + |p.1 * p.2| := by
      rw [Int.cast_add, ← hp]
      exact (abs_add_le _ _).trans (add_le_add ih3 le_rfl)
    refine ⟨k + a * b, ?_, ?_, hk⟩
    · rw [ih1, hp]; push_cast; ring
    · rw [hstep, ih2, hp, hB (a * b) (hnat _ (by rw [← hp]; linarith)), ← Int.cast_add, hB _ (hnat _ (by linarith))]

/-- **C83** (whole numbers; partial: row 0 as in C23).  With whole weights and sums of products that stay within the integers that
are floats (`2^53` in double precision), `fit` in floating point makes no error at all: the rows are ranked by the exact entries of `MᵀM`. -/
theorem C83_counts_partial (H : HeapImpl (R × Nat) pairLt) (r : Rounding R) (B : Nat) (hB : r.ExactUpTo B) (n K : Nat) (hK : 1 ≤ K)
    (hnK : n * K ≤ 2 ^ 31) (M : SpRows R) (hnd : ∀ row ∈ M, (row.map Prod.fst).Nodup) (hM : ∀ r ∈ M, ∀ e ∈ r, e.1 < n)
    (hz : ∀ r ∈ M, ∀ e ∈ r, ∃ k : Int, e.2 = k) (hsmall : ∀ i j, Spec.similarityMass M i j ≤ B) :
    ∃ sim, roundKnnFit H r n K M = .ok sim ∧ sim.length = n ∧
      ∀ i < n, ∃ row out, sim[i]? = some row ∧ (row.map Prod.fst).Pairwise (· < ·) ∧
        Spec.IsRanking K (Spec.CoRated M i) (fun j => some (Spec.similarity M i j)) out ∧
        (i ≠ 0 ∨ 0 ∈ out.map Prod.fst ∨ (∀ i' < n, ¬ Spec.Few M K i') → ∀ p, p ∈ row ↔ p ∈ out) := by
  obtain ⟨sim, e, hlen, h⟩ := roundFit_rows H r n K hK hnK M hM
  refine ⟨sim, e, hlen, fun i hi => ?_⟩
  obtain ⟨row, out, h1, h2, h3, h4⟩ := h i hi
  have hex : (fun j => some (roundSum r (colPairs M i j))) = fun j => some (Spec.similarity M i j) := by
    funext j
    have hm := colPairs_map hnd (fun x => |x|) abs_zero i j
    have hs := colPairs_map hnd (fun x => x) rfl i j
    rw [roundSum_int r hB (colPairs M i j) ?_ (by rw [hm]; exact hsmall i j), hs]
    · rfl
    · intro p hp
      unfold colPairs at hp
      obtain ⟨row, hrow, hp⟩ := List.mem_flatMap.mp hp
      obtain ⟨w, hw, hp⟩ := List.mem_flatMap.mp hp
      obtain ⟨x, hx, rfl⟩ := List.mem_map.mp hp
      obtain ⟨a, ha⟩ := hz row hrow x (List.mem_filter.mp hx).1
      obtain ⟨b, hb⟩ := hz row hrow w (List.mem_filter.mp hw).1
      exact ⟨a, b, by rw [ha, hb]⟩
  rw [hex] at h3
  refine ⟨row, out, h1, h2, h3, fun hc p => (h4 p).trans ⟨?_, Or.inl⟩⟩
  rintro (hp | ⟨h0, -, hn, i', hi', hf⟩)
  · exact hp
  · rcases hc with hc | hc | hc
    · exact absurd h0 hc
    · exact absurd hc hn
    · exact absurd hf (hc i' hi')

end

section
variable {R : Type} [Field R] [LinearOrder R] [IsStrictOrderedRing R] [FloorRing R]

/-- Multiples of the spacing are floats. -/
theorem ieeeBits_of_multiple {p : Nat} {emin : Int} {x : R} {k : Int} (h : x = k * ulp p emin x) : ieeeBits p emin x = x := by
  have hpos := ulp_pos p emin x
  unfold ieeeBits
  have : x / ulp p emin x = k := by
    rw [div_eq_iff hpos.ne']; exact h
  rw [this, roundEven_int, ← h]

/-- In IEEE 754 arithmetic with `p` digits all integers up to `2^p` are exact. -/
theorem ieee_exact (p : Nat) (hp : 1 ≤ p) (emin : Int) (he : emin ≤ 0) : (ieee p emin : Rounding R).ExactUpTo (2 ^ p) := by
  intro k hk
  show ieeeBits p emin (k : R) = k
  by_cases h0 : k = 0
  · subst h0
    simp [ieeeBits, roundEven]
  have hpos : (0 : R) < |(k : R)| := abs_pos.mpr (by exact_mod_cast h0)
  have hle : |(k : R)| ≤ (2 : R) ^ p := by
    rw [← Int.cast_abs, Int.abs_eq_natAbs]
    exact_mod_cast hk
  rcases hle.lt_or_eq with hlt | heq
  · have hlog : Int.log 2 |(k : R)| < p := by
      rw [← Int.lt_zpow_iff_log_lt (by norm_num) hpos]
      simpa using hlt
    obtain ⟨d, hd⟩ : ∃ d : Nat, max (Int.log 2 |(k : R)| - p + 1) emin = -(d : Int) :=
      ⟨(-max (Int.log 2 |(k : R)| - p + 1) emin).toNat, by omega⟩
    refine ieeeBits_of_multiple (k := k * 2 ^ d) ?_
    unfold ulp
    rw [hd, zpow_neg, zpow_natCast]
    push_cast
    field_simp
  · have hlog : Int.log 2 |(k : R)| = p := by
      rw [heq, ← zpow_natCast]
      have := Int.log_zpow (R := R) (b := 2) (by norm_num) (p : Int)
      simpa using this
    obtain ⟨q, rfl⟩ : ∃ q, p = q + 1 := ⟨p - 1, by omega⟩
    have hu : ulp (q + 1) emin (k : R) = 2 := by
      unfold ulp
      rw [hlog]
      have : max (((q + 1 : Nat) : Int) - ((q + 1 : Nat) : Int) + 1) emin = 1 := by omega
      rw [this, zpow_one]
    have hk2 : k.natAbs = 2 ^ (q + 1) := by
      rw [← Int.cast_abs, Int.abs_eq_natAbs] at heq
      exact_mod_cast heq
    obtain ⟨c, hc⟩ : ∃ c : Int, k = c * 2 := by
      rcases Int.natAbs_eq k with h | h
      · exact ⟨2 ^ q, by rw [h, hk2]; push_cast; ring⟩
      · exact ⟨-2 ^ q, by rw [h, hk2]; push_cast; ring⟩
    refine ieeeBits_of_multiple (k := c) ?_
    rw [hu]
    conv_lhs => rw [hc]
    push_cast
    rfl

/-- The hypothesis of `C83_counts_partial` for the `double`s of the native code. -/
theorem double_exact : (ieee 53 (-1074) : Rounding R).ExactUpTo (2 ^ 53) := ieee_exact 53 (by norm_num) _ (by norm_num)

end

/-! ## Cosine -/

/-- The length of an item's vector as `normalize` computes it. -/
noncomputable def roundLength (r : Rounding ℝ) (counts : SpRows ℝ) (i : Nat) : ℝ := r.rnd (Real.sqrt (roundSum r (colPairs counts i i)))

theorem roundBincount_eq (r : Rounding ℝ) (n : Nat) {counts : SpRows ℝ} (hnd : ∀ row ∈ counts, (row.map Prod.fst).Nodup) (i : Nat) :
    roundBincount r ((itemUser n counts).entries.map fun e => (e.1, r.rnd (e.2.2 ^ 2))) i = roundSum r (colPairs counts i i) := by
  unfold roundBincount roundSum
  congr 1
  rw [colPairs_eq hnd]
  unfold itemUser
  simp only [List.map_flatMap, List.filter_flatMap, List.map_map]
  have : counts = counts.zipIdx.map Prod.fst := by simp
  conv_rhs => rw [this, List.flatMap_map]
  apply List.flatMap_congr
  rintro ⟨row, u⟩ hu
  have hrow : row ∈ counts := List.mem_of_getElem? (List.mem_zipIdx_iff_getElem?.mp hu)
  rw [List.filter_map, List.map_map]
  have e1 : (row.filter ((fun e : Nat × ℝ => e.1 == i) ∘ ((fun e : Nat × Nat × ℝ => (e.1, r.rnd (e.2.2 ^ 2))) ∘ fun e => (e.1, u, e.2)))) =
      row.filter fun e => e.1 == i := List.filter_congr fun _ _ => rfl
  simp only [e1]
  rw [filter_key (hnd row hrow) i]
  simp only [Bool.and_self]
  split_ifs
  · simp [pow_two]
  · rfl

theorem roundNormalize_rows (r : Rounding ℝ) (n : Nat) {counts : SpRows ℝ} (hnd : ∀ row ∈ counts, (row.map Prod.fst).Nodup) :
    userRows counts.length (roundNormalize r (itemUser n counts)) =
      counts.map fun row => coalesce (row.map fun e => (e.1, r.rnd (e.2 / roundLength r counts e.1))) := by
  have h1 : roundNormalize r (itemUser n counts) =
      ⟨n, (itemUser n counts).entries.map fun e => (e.1, e.2.1,
        (fun i _ v => r.rnd (v / roundLength r counts i)) e.1 e.2.1 e.2.2)⟩ := by
    unfold roundNormalize
    simp only [roundBincount_eq r n hnd]
    rfl
  rw [h1, userRows_eq n (fun i _ v => r.rnd (v / roundLength r counts i)) counts]
  generalize roundLength r counts = d
  unfold weightRows
  rw [List.map_map]
  have : counts = counts.zipIdx.map Prod.fst := by simp
  conv_rhs => rw [this, List.map_map]
  rfl

theorem cell_rounded {r : Rounding ℝ} (h0 : r.η = 0) (d : Nat → ℝ) {row : List (Nat × ℝ)} (hnd : (row.map Prod.fst).Nodup) (i : Nat) :
    Spec.cell (coalesce (row.map fun e => (e.1, r.rnd (e.2 / d e.1)))) i = r.rnd (Spec.cell row i / d i) := by
  unfold Spec.cell
  rw [sumAt_coalesce]
  by_cases h : Spec.Stored row i
  · obtain ⟨v, hv⟩ := h
    rw [sumAt_of_mem hnd hv]
    exact sumAt_of_mem (by rw [List.map_map]; exact hnd) (List.mem_map.mpr ⟨(i, v), hv, rfl⟩)
  · rw [sumAt_eq_zero h, zero_div, rnd_zero r h0]
    exact sumAt_eq_zero fun hs => h ((stored_weight (fun i v => r.rnd (v / d i)) row i).mp hs)

theorem any_rounded (r : Rounding ℝ) (d : Nat → ℝ) (row : List (Nat × ℝ)) (i : Nat) :
    (coalesce (row.map fun e => (e.1, r.rnd (e.2 / d e.1)))).any (fun e => e.1 == i) = row.any (fun e => e.1 == i) := by
  have hst : ∀ l : List (Nat × ℝ), l.any (fun e => e.1 == i) = true ↔ Spec.Stored l i := by
    intro l
    simp [Spec.Stored]
  rw [Bool.eq_iff_iff, hst, hst, stored_coalesce]
  exact stored_weight (fun i v => r.rnd (v / d i)) row i

theorem column_ne_zero {counts : SpRows ℝ} (hnd : ∀ row ∈ counts, (row.map Prod.fst).Nodup) (hz : ∀ r ∈ counts, ∀ e ∈ r, e.2 ≠ 0)
    {row : List (Nat × ℝ)} (hrow : row ∈ counts) {i : Nat} (hs : Spec.Stored row i) : Spec.column counts i ≠ 0 := by
  obtain ⟨v, hv⟩ := hs
  obtain ⟨u, hu, rfl⟩ := List.mem_iff_getElem.mp hrow
  intro h
  have := congrFun h ⟨u, hu⟩
  unfold Spec.column Spec.cell at this
  simp only [Fin.getElem_fin] at this
  rw [sumAt_of_mem (hnd _ hrow) hv] at this
  exact hz _ hrow _ hv this

theorem similarity_self (counts : SpRows ℝ) (i : Nat) : Spec.similarity counts i i = Spec.length (Spec.column counts i) ^ 2 := by
  rw [similarity_eq_dot]
  unfold Spec.length
  rw [Real.sq_sqrt (Finset.sum_nonneg fun _ _ => sq_nonneg _)]
  exact Finset.sum_congr rfl fun _ _ => (pow_two _).symm

/-- Computed lengths are relatively accurate. -/
theorem roundLength_spec (r : Rounding ℝ) (h0 : r.η = 0) {counts : SpRows ℝ} (hnd : ∀ row ∈ counts, (row.map Prod.fst).Nodup)
    (i m : Nat) (hm : Spec.coRaters counts i i ≤ m) (hu : (1 + r.u) ^ (m + 2) < 2) (hne : Spec.column counts i ≠ 0) :
    |roundLength r counts i - Spec.length (Spec.column counts i)| ≤ ((1 + r.u) ^ (m + 2) - 1) * Spec.length (Spec.column counts i) := by
  have hun := r.u_nonneg
  have hpos := length_pos hne
  have e1 := similarity_error r hnd i i
  have hmass : Spec.similarityMass counts i i = Spec.similarity counts i i := by
    unfold Spec.similarityMass Spec.similarity
    congr 1
    exact List.map_congr_left fun row _ => abs_of_nonneg (mul_self_nonneg _)
  rw [hmass, h0, similarity_self] at e1
  unfold Spec.sumError at e1
  rw [mul_zero, add_zero] at e1
  obtain ⟨l, hl⟩ : ∃ l, l = Spec.length (Spec.column counts i) := ⟨_, rfl⟩
  obtain ⟨G, hG⟩ : ∃ G, G = (1 + r.u) ^ (m + 1) := ⟨_, rfl⟩
  rw [← hl] at e1 hpos
  have hG1 : 1 ≤ G := by rw [hG]; exact one_le_pow₀ (by linarith)
  have hGg : G ≤ (1 + r.u) ^ (m + 2) := by rw [hG]; exact pow_le_pow_right₀ (by linarith) (by omega)
  have hle : (1 + r.u) ^ (Spec.coRaters counts i i + 1) ≤ G := by rw [hG]; exact pow_le_pow_right₀ (by linarith) (by omega)
  have e1 : |roundSum r (colPairs counts i i) - l ^ 2| ≤ (G - 1) * l ^ 2 :=
    e1.trans (mul_le_mul_of_nonneg_right (by linarith) (sq_nonneg l))
  have e2 := abs_le.mp e1
  have s1 : Real.sqrt (roundSum r (colPairs counts i i)) ≤ G * l := by
    apply Real.sqrt_le_iff.mpr
    refine ⟨by positivity, ?_⟩
    nlinarith [e2.2, sq_nonneg l, mul_nonneg (by linarith : (0 : ℝ) ≤ G) (by linarith : (0 : ℝ) ≤ G - 1)]
  have s2 : (2 - G) * l ≤ Real.sqrt (roundSum r (colPairs counts i i)) := by
    apply Real.le_sqrt_of_sq_le
    nlinarith [e2.1, sq_nonneg l, mul_nonneg (by linarith : (0 : ℝ) ≤ 2 - G) (by linarith : (0 : ℝ) ≤ G - 1)]
  have s3 : |Real.sqrt (roundSum r (colPairs counts i i)) - l| ≤ (G - 1) * l := abs_le.mpr ⟨by linarith, by linarith⟩
  have s4 := round_step_zero r h0 s3 (abs_of_pos hpos).le hG1
  have e3 : G * (1 + r.u) = (1 + r.u) ^ (m + 2) := by rw [hG, ← pow_succ]
  rw [e3] at s4
  rw [← hl]
  exact s4

/-- Errors of sums over the users. -/
theorem sum_error_le {α : Type} (M : List α) (a b d : α → ℝ) (k : ℝ) (h : ∀ x ∈ M, |a x - b x| ≤ k * d x) :
    |(M.map a).sum - (M.map b).sum| ≤ k * (M.map d).sum := by
  induction M with
  | nil => simp
  | cons x M ih =>
    simp only [List.map_cons, List.sum_cons]
    have e : a x + (M.map a).sum - (b x + (M.map b).sum) = (a x - b x) + ((M.map a).sum - (M.map b).sum) := by ring
    rw [e, mul_add]
    exact (abs_add_le _ _).trans (add_le_add (h x (by simp)) (ih fun y hy => h y (by simp [hy])))

theorem similarityMass_le (counts : SpRows ℝ) (i j : Nat) :
    Spec.similarityMass counts i j ≤ Spec.length (Spec.column counts i) * Spec.length (Spec.column counts j) := by
  refine le_trans (le_of_eq ?_) (mass_le_length _ _)
  unfold Spec.similarityMass Spec.column
  rw [← List.sum_ofFn]
  congr 1
  apply List.ext_getElem (by simp)
  intro u h1 h2
  simp

/-- How far a cosine similarity may be off if every item has at most `m` ratings. -/
noncomputable def Spec.cosineFitError (u : ℝ) (m : Nat) : ℝ := (1 + u) ^ (m + 3) / (2 - (1 + u) ^ (m + 2)) ^ 2 - 1

/-- The computed cosine of two items divided by lengths with relative error `g - 1`. -/
theorem cosine_error_lengths (r : Rounding ℝ) (h0 : r.η = 0) {counts : SpRows ℝ} (hnd : ∀ row ∈ counts, (row.map Prod.fst).Nodup)
    (hz : ∀ r ∈ counts, ∀ e ∈ r, e.2 ≠ 0) (m : Nat) (hm : ∀ i, Spec.coRaters counts i i ≤ m) {g : ℝ} (hg1 : 1 ≤ g) (hu : g < 2) (d : Nat → ℝ)
    (hd : ∀ k, Spec.column counts k ≠ 0 → |d k - Spec.length (Spec.column counts k)| ≤ (g - 1) * Spec.length (Spec.column counts k))
    (i j : Nat) (hco : Spec.CoRated counts i j) :
    |roundSum r (colPairs (counts.map fun row => coalesce (row.map fun e => (e.1, r.rnd (e.2 / d e.1)))) i j) -
      Spec.cosine (Spec.column counts i) (Spec.column counts j)| ≤ (1 + r.u) ^ (m + 3) / (2 - g) ^ 2 - 1 := by
  have hun := r.u_nonneg
  have h1u : 1 ≤ 1 + r.u := by linarith
  obtain ⟨row0, hrow0, hsi, hsj⟩ := hco
  have hni := column_ne_zero hnd hz hrow0 hsi
  have hnj := column_ne_zero hnd hz hrow0 hsj
  set W := counts.map fun row => coalesce (row.map fun e => (e.1, r.rnd (e.2 / d e.1))) with hW
  have hWnd : ∀ row ∈ W, (row.map Prod.fst).Nodup := by
    intro row hrow
    obtain ⟨r', -, rfl⟩ := List.mem_map.mp hrow
    exact (coalesce_sorted _).imp fun h => Nat.ne_of_lt h
  have e1 := similarity_error r hWnd i j
  rw [h0] at e1
  unfold Spec.sumError at e1
  rw [mul_zero, add_zero] at e1
  -- number of products
  have hcnt : Spec.coRaters W i j ≤ m := by
    refine le_trans ?_ (hm i)
    have : Spec.coRaters W i j = Spec.coRaters counts i j := by
      unfold Spec.coRaters
      rw [hW, List.countP_map]
      apply List.countP_congr
      intro row _
      simp only [Function.comp_apply, any_rounded]
    rw [this]
    unfold Spec.coRaters
    apply List.countP_mono_left
    intro row _ h
    simp only [Bool.and_self, Bool.and_eq_true] at h ⊢
    exact h.1
  -- the weights
  set Q : ℝ := 1 / (2 - g) * (1 + r.u) with hQ
  have h2g : 0 < 2 - g := by linarith
  have hQ1 : 1 ≤ Q := by
    rw [hQ, div_mul_eq_mul_div, one_mul, le_div_iff₀ h2g]
    linarith
  have hwt : ∀ (k : Nat), Spec.column counts k ≠ 0 → ∀ c : ℝ,
      |r.rnd (c / d k) - c / Spec.length (Spec.column counts k)| ≤
        (Q - 1) * (|c| / Spec.length (Spec.column counts k)) := by
    intro k hk c
    have hl := hd k hk
    have hq := quotient_step (p := c) (P := c) (A := |c|) (F := 1) (by simp) le_rfl (length_pos hk) hl hu le_rfl hg1
    exact round_step_zero r h0 hq.1 hq.2.1 hq.2.2
  obtain ⟨Li, hLi⟩ : ∃ L, L = Spec.length (Spec.column counts i) := ⟨_, rfl⟩
  obtain ⟨Lj, hLj⟩ : ∃ L, L = Spec.length (Spec.column counts j) := ⟨_, rfl⟩
  have hLip : 0 < Li := by rw [hLi]; exact length_pos hni
  have hLjp : 0 < Lj := by rw [hLj]; exact length_pos hnj
  have hprod : ∀ row ∈ counts,
      |r.rnd (Spec.cell row i / d i) * r.rnd (Spec.cell row j / d j) -
        Spec.cell row i / Li * (Spec.cell row j / Lj)| ≤ (Q * Q - 1) * (|Spec.cell row i * Spec.cell row j| / (Li * Lj)) := by
    intro row _
    have a1 := hwt i hni (Spec.cell row i)
    have a2 := hwt j hnj (Spec.cell row j)
    rw [← hLi] at a1
    rw [← hLj] at a2
    have m1 : |Spec.cell row i / Li| = |Spec.cell row i| / Li := by rw [abs_div, abs_of_pos hLip]
    have m2 : |Spec.cell row j / Lj| = |Spec.cell row j| / Lj := by rw [abs_div, abs_of_pos hLjp]
    have em : |Spec.cell row i * Spec.cell row j| / (Li * Lj) = |Spec.cell row i| / Li * (|Spec.cell row j| / Lj) := by
      rw [abs_mul, mul_div_mul_comm]
    rw [em]
    rw [← m1] at a1 ⊢
    rw [← m2] at a2 ⊢
    generalize r.rnd (Spec.cell row i / d i) = x at a1 ⊢
    generalize r.rnd (Spec.cell row j / d j) = y at a2 ⊢
    generalize Spec.cell row i / Li = p at a1 ⊢
    generalize Spec.cell row j / Lj = q at a2 ⊢
    have e : x * y - p * q = (x - p) * (y - q) + (x - p) * q + p * (y - q) := by ring
    rw [e]
    have b1 := abs_nonneg p
    have b2 := abs_nonneg q
    calc |(x - p) * (y - q) + (x - p) * q + p * (y - q)| ≤ |x - p| * |y - q| + |x - p| * |q| + |p| * |y - q| := by
          rw [← abs_mul, ← abs_mul, ← abs_mul]
          exact (abs_add_le _ _).trans (add_le_add (abs_add_le _ _) le_rfl)
      _ ≤ ((Q - 1) * |p|) * ((Q - 1) * |q|) + ((Q - 1) * |p|) * |q| + |p| * ((Q - 1) * |q|) := by
          have hx := abs_nonneg (x - p)
          have hy := abs_nonneg (y - q)
          have c1 : |x - p| * |y - q| ≤ ((Q - 1) * |p|) * ((Q - 1) * |q|) := mul_le_mul a1 a2 hy (hx.trans a1)
          have c2 : |x - p| * |q| ≤ ((Q - 1) * |p|) * |q| := mul_le_mul_of_nonneg_right a1 b2
          have c3 : |p| * |y - q| ≤ |p| * ((Q - 1) * |q|) := mul_le_mul_of_nonneg_left a2 b1
          linarith
      _ = _ := by ring
  have hsimW : Spec.similarity W i j = (counts.map fun row =>
      r.rnd (Spec.cell row i / d i) * r.rnd (Spec.cell row j / d j)).sum := by
    unfold Spec.similarity
    rw [hW, List.map_map]
    congr 1
    refine List.map_congr_left fun row hrow => ?_
    simp only [Function.comp_apply]
    rw [cell_rounded h0 d (hnd row hrow), cell_rounded h0 d (hnd row hrow)]
  have hmassW : Spec.similarityMass W i j = (counts.map fun row =>
      |r.rnd (Spec.cell row i / d i) * r.rnd (Spec.cell row j / d j)|).sum := by
    unfold Spec.similarityMass
    rw [hW, List.map_map]
    congr 1
    refine List.map_congr_left fun row hrow => ?_
    simp only [Function.comp_apply]
    rw [cell_rounded h0 d (hnd row hrow), cell_rounded h0 d (hnd row hrow)]
  -- the total of the exact products
  have hA : (counts.map fun row => |Spec.cell row i * Spec.cell row j| / (Li * Lj)).sum ≤ 1 := by
    have h1 : (counts.map fun row => |Spec.cell row i * Spec.cell row j| / (Li * Lj)).sum =
        Spec.similarityMass counts i j / (Li * Lj) := by
      unfold Spec.similarityMass
      simp only [div_eq_mul_inv]
      rw [List.sum_map_mul_right]
    rw [h1, div_le_one (mul_pos hLip hLjp), hLi, hLj]
    exact similarityMass_le counts i j
  have hA0 : 0 ≤ (counts.map fun row => |Spec.cell row i * Spec.cell row j| / (Li * Lj)).sum := by
    apply List.sum_nonneg
    intro x hx
    obtain ⟨row, -, rfl⟩ := List.mem_map.mp hx
    have := mul_pos hLip hLjp
    positivity
  have hcos : Spec.cosine (Spec.column counts i) (Spec.column counts j) =
      (counts.map fun row => Spec.cell row i / Li * (Spec.cell row j / Lj)).sum := by
    rw [← similarity_cosine]
    unfold Spec.similarity
    rw [List.map_map]
    congr 1
    refine List.map_congr_left fun row _ => ?_
    simp only [Function.comp_apply]
    rw [cell_div (fun k => Spec.length (Spec.column counts k)), cell_div (fun k => Spec.length (Spec.column counts k)), hLi, hLj]
  set A := (counts.map fun row => |Spec.cell row i * Spec.cell row j| / (Li * Lj)).sum with hAdef
  have d1 := sum_error_le counts _ _ _ _ hprod
  rw [← hsimW, ← hcos, ← hAdef] at d1
  have d2 : Spec.similarityMass W i j ≤ Q * Q * A := by
    have := sum_error_le counts (fun row =>
      |r.rnd (Spec.cell row i / d i) * r.rnd (Spec.cell row j / d j)|) (fun _ => 0)
      (fun row => |Spec.cell row i * Spec.cell row j| / (Li * Lj)) (Q * Q) (by
        intro row hrow
        rw [sub_zero, abs_abs]
        have h1 := hprod row hrow
        have h2 : |Spec.cell row i / Li * (Spec.cell row j / Lj)| = |Spec.cell row i * Spec.cell row j| / (Li * Lj) := by
          rw [div_mul_div_comm, abs_div, abs_of_pos (mul_pos hLip hLjp)]
        have h3 := abs_sub_abs_le_abs_sub (r.rnd (Spec.cell row i / d i) * r.rnd (Spec.cell row j / d j))
          (Spec.cell row i / Li * (Spec.cell row j / Lj))
        rw [h2] at h3
        linarith)
    have hz : (counts.map fun _ : List (Nat × ℝ) => (0 : ℝ)).sum = 0 := by simp
    rw [hz, sub_zero, ← hmassW] at this
    exact (le_abs_self _).trans this
  have hF : (1 + r.u) ^ (Spec.coRaters W i j + 1) ≤ (1 + r.u) ^ (m + 1) := pow_le_pow_right₀ h1u (by omega)
  have hF1 : 1 ≤ (1 + r.u) ^ (m + 1) := one_le_pow₀ h1u
  have hm0 : 0 ≤ Spec.similarityMass W i j := by
    rw [hmassW]
    apply List.sum_nonneg
    intro x hx
    obtain ⟨row, -, rfl⟩ := List.mem_map.mp hx
    exact abs_nonneg _
  have e2 : |roundSum r (colPairs W i j) - Spec.similarity W i j| ≤ ((1 + r.u) ^ (m + 1) - 1) * (Q * Q * A) :=
    e1.trans ((mul_le_mul_of_nonneg_right (by linarith) hm0).trans (mul_le_mul_of_nonneg_left d2 (by linarith)))
  have e3 : |roundSum r (colPairs W i j) - Spec.cosine (Spec.column counts i) (Spec.column counts j)| ≤
      ((1 + r.u) ^ (m + 1) * (Q * Q) - 1) * A := by
    have := abs_sub_le (roundSum r (colPairs W i j)) (Spec.similarity W i j) (Spec.cosine (Spec.column counts i) (Spec.column counts j))
    refine this.trans ((add_le_add e2 d1).trans (le_of_eq ?_))
    ring
  refine e3.trans ?_
  have hQQ : 1 ≤ (1 + r.u) ^ (m + 1) * (Q * Q) := by nlinarith
  have hfin : (1 + r.u) ^ (m + 1) * (Q * Q) - 1 = (1 + r.u) ^ (m + 3) / (2 - g) ^ 2 - 1 := by
    rw [hQ]
    rw [show m + 3 = (m + 1) + 2 from rfl, pow_add _ (m + 1) 2]
    field_simp
  rw [← hfin]
  calc ((1 + r.u) ^ (m + 1) * (Q * Q) - 1) * A ≤ ((1 + r.u) ^ (m + 1) * (Q * Q) - 1) * 1 :=
        mul_le_mul_of_nonneg_left hA (by linarith)
    _ = _ := mul_one _

theorem cosine_error (r : Rounding ℝ) (h0 : r.η = 0) {counts : SpRows ℝ} (hnd : ∀ row ∈ counts, (row.map Prod.fst).Nodup)
    (hz : ∀ r ∈ counts, ∀ e ∈ r, e.2 ≠ 0) (m : Nat) (hm : ∀ i, Spec.coRaters counts i i ≤ m) (hu : (1 + r.u) ^ (m + 2) < 2)
    (i j : Nat) (hco : Spec.CoRated counts i j) :
    |roundSum r (colPairs (counts.map fun row => coalesce (row.map fun e => (e.1, r.rnd (e.2 / roundLength r counts e.1)))) i j) -
      Spec.cosine (Spec.column counts i) (Spec.column counts j)| ≤ Spec.cosineFitError r.u m :=
  cosine_error_lengths r h0 hnd hz m hm (one_le_pow₀ (by linarith [r.u_nonneg])) hu (roundLength r counts)
    (fun k hk => roundLength_spec r h0 hnd k m (hm k) hu hk) i j hco

/-- **C83** (`CosineRecommender`; partial: row 0 as in C23).  Counts without stored zeros, at most `m` ratings per item, no underflow:
after `fit` the row of item `i` lists items with a user in common, similarities within `cosineFitError` of the exact cosines, and
no item instead of another whose cosine is greater by more than twice that. -/
theorem C83_cosine_partial (H : HeapImpl (ℝ × Nat) pairLt) (r : Rounding ℝ) (h0 : r.η = 0) (n K : Nat) (hK : 1 ≤ K)
    (hnK : n * K ≤ 2 ^ 31) (counts : SpRows ℝ) (hnd : ∀ row ∈ counts, (row.map Prod.fst).Nodup)
    (hM : ∀ r ∈ counts, ∀ e ∈ r, e.1 < n) (hz : ∀ r ∈ counts, ∀ e ∈ r, e.2 ≠ 0) (m : Nat)
    (hm : ∀ i, Spec.coRaters counts i i ≤ m) (hu : (1 + r.u) ^ (m + 2) < 2) :
    ∃ sim, roundCosineFit H r n K counts = .ok sim ∧ sim.length = n ∧
      ∀ i, 0 < i → i < n → ∃ row out, sim[i]? = some row ∧ (∀ p, p ∈ row ↔ p ∈ out) ∧
        Spec.ApproxRanking K (Spec.CoRated counts i) (fun j => Spec.cosine (Spec.column counts i) (Spec.column counts j))
          (fun _ => Spec.cosineFitError r.u m) out := by
  unfold roundCosineFit
  rw [roundNormalize_rows r n hnd]
  set W := counts.map fun row => coalesce (row.map fun e => (e.1, r.rnd (e.2 / roundLength r counts e.1))) with hW
  have hst : ∀ row i, Spec.Stored (coalesce (row.map fun e => (e.1, r.rnd (e.2 / roundLength r counts e.1)))) i ↔ Spec.Stored row i :=
    fun row i => (stored_coalesce _ i).trans (stored_weight (fun i v => r.rnd (v / roundLength r counts i)) row i)
  have hbound : ∀ r ∈ W, ∀ e ∈ r, e.1 < n := by
    intro w hw e he
    obtain ⟨row, hrow, rfl⟩ := List.mem_map.mp hw
    obtain ⟨v, hv⟩ := (hst row e.1).mp ⟨e.2, he⟩
    exact hM row hrow (e.1, v) hv
  obtain ⟨sim, e, hl, h⟩ := roundFit_rows H r n K hK hnK W hbound
  refine ⟨sim, e, hl, fun i hi0 hi => ?_⟩
  obtain ⟨row, out, h1, -, h3, h4⟩ := h i hi
  have hco : Spec.CoRated W i = Spec.CoRated counts i := by
    funext j
    apply propext
    unfold Spec.CoRated
    rw [hW]
    simp only [List.mem_map, exists_exists_and_eq_and, hst]
  rw [hco] at h3
  refine ⟨row, out, h1, fun p => (h4 p).trans ⟨?_, Or.inl⟩, approx_of_ranking h3 fun j hj => cosine_error r h0 hnd hz m hm hu i j hj⟩
  rintro (hp | ⟨h0, -⟩)
  · exact hp
  · omega

theorem pow_mul_le_one {u : ℝ} (hu : 0 ≤ u) (k : Nat) : (1 + u) ^ k * (1 - k * u) ≤ 1 := by
  induction k with
  | zero => simp
  | succ k ih =>
    have hp : 0 ≤ (1 + u) ^ k := by positivity
    have h1 : (1 + u) * (1 - ((k + 1 : Nat) : ℝ) * u) ≤ 1 - k * u := by
      push_cast
      nlinarith [sq_nonneg u, mul_nonneg (Nat.cast_nonneg (α := ℝ) k) (sq_nonneg u)]
    calc (1 + u) ^ (k + 1) * (1 - ((k + 1 : Nat) : ℝ) * u) = (1 + u) ^ k * ((1 + u) * (1 - ((k + 1 : Nat) : ℝ) * u)) := by
          rw [pow_succ]; ring
      _ ≤ (1 + u) ^ k * (1 - k * u) := mul_le_mul_of_nonneg_left h1 hp
      _ ≤ 1 := ih

/-- In double precision, with up to a million ratings per item, a cosine similarity is off by less than `0.000000001`. -/
theorem C83_cosine_double (m : Nat) (hm : m ≤ 1000000) :
    Spec.cosineFitError ((2 : ℝ) ^ (-53 : Int)) m < 1 / 10 ^ 9 ∧ (1 + (2 : ℝ) ^ (-53 : Int)) ^ (m + 2) < 2 := by
  have hu : (0 : ℝ) ≤ 2 ^ (-53 : Int) := by positivity
  have hb : ∀ k ≤ 1000003, (1 + (2 : ℝ) ^ (-53 : Int)) ^ k ≤ 1 + 2 / 10 ^ 10 := by
    intro k hk
    have h1 := pow_mul_le_one hu k
    have hk' : (k : ℝ) ≤ 1000003 := by exact_mod_cast hk
    have h2 : 1 - 1 / (8 * 10 ^ 9) ≤ 1 - (k : ℝ) * 2 ^ (-53 : Int) := by
      have : (k : ℝ) * 2 ^ (-53 : Int) ≤ 1000003 * 2 ^ (-53 : Int) := mul_le_mul_of_nonneg_right hk' hu
      have h3 : (1000003 : ℝ) * 2 ^ (-53 : Int) ≤ 1 / (8 * 10 ^ 9) := by norm_num
      linarith
    have hp : 0 < (1 + (2 : ℝ) ^ (-53 : Int)) ^ k := by positivity
    generalize (1 + (2 : ℝ) ^ (-53 : Int)) ^ k = x at *
    have : x * (1 - 1 / (8 * 10 ^ 9)) ≤ 1 := (mul_le_mul_of_nonneg_left h2 hp.le).trans h1
    norm_num at this ⊢
    linarith
  have hx := hb (m + 3) (by omega)
  have hy := hb (m + 2) (by omega)
  refine ⟨?_, by
    refine lt_of_le_of_lt hy ?_
    norm_num⟩
  unfold Spec.cosineFitError
  generalize (1 + (2 : ℝ) ^ (-53 : Int)) ^ (m + 3) = x at *
  generalize (1 + (2 : ℝ) ^ (-53 : Int)) ^ (m + 2) = y at *
  have h2y : 1 - 2 / 10 ^ 10 ≤ 2 - y := by linarith
  have hsq : (1 - 2 / 10 ^ 10 : ℝ) ^ 2 ≤ (2 - y) ^ 2 := by
    apply pow_le_pow_left₀ _ h2y
    norm_num
  have hpos : (0 : ℝ) < (1 - 2 / 10 ^ 10 : ℝ) ^ 2 := by norm_num
  rw [sub_lt_iff_lt_add, div_lt_iff₀ (lt_of_lt_of_le hpos hsq)]
  calc x ≤ 1 + 2 / 10 ^ 10 := hx
    _ < (1 / 10 ^ 9 + 1) * (1 - 2 / 10 ^ 10 : ℝ) ^ 2 := by norm_num
    _ ≤ _ := mul_le_mul_of_nonneg_left hsq (by norm_num)

/-! ## Witnesses -/

theorem log_cast (q : ℚ) (hq : 0 < q) : Int.log 2 (q : ℝ) = Int.log 2 q := by
  apply eq_of_forall_le_iff
  intro k
  rw [← Int.zpow_le_iff_le_log (by norm_num) hq, ← Int.zpow_le_iff_le_log (by norm_num) (by exact_mod_cast hq : (0 : ℝ) < q)]
  have : ((2 : Nat) : ℝ) ^ k = (((2 : Nat) : ℚ) ^ k : ℚ) := by push_cast; rfl
  rw [this]
  exact Rat.cast_le

theorem roundEven_cast (q : ℚ) : roundEven (q : ℝ) = roundEven q := by
  have h2 : (1 / 2 : ℝ) = ((1 / 2 : ℚ) : ℝ) := by push_cast; rfl
  unfold roundEven
  simp only [Rat.floor_cast, h2, ← Rat.cast_intCast (α := ℝ), ← Rat.cast_sub, Rat.cast_lt]

theorem ieeeBits_cast (p : Nat) (emin : Int) (q : ℚ) : ieeeBits p emin (q : ℝ) = (ieeeBits p emin q : ℚ) := by
  by_cases h : q = 0
  · subst h
    simp [ieeeBits, roundEven]
  · have hu : ulp p emin (q : ℝ) = (ulp p emin q : ℚ) := by
      unfold ulp
      rw [← Rat.cast_abs, log_cast _ (abs_pos.mpr h)]
      push_cast
      rfl
    unfold ieeeBits
    rw [hu, ← Rat.cast_div, roundEven_cast]
    push_cast
    rfl

theorem roundSum_cast (p : Nat) (emin : Int) (ps : List (ℚ × ℚ)) :
    roundSum (ieee p emin) (ps.map fun q => ((q.1 : ℝ), (q.2 : ℝ))) = (roundSum (ieee p emin) ps : ℚ) := by
  have hr : ∀ q : ℚ, (ieee p emin : Rounding ℝ).rnd (q : ℝ) = ((ieee p emin : Rounding ℚ).rnd q : ℚ) :=
    ieeeBits_cast p emin
  induction ps using List.reverseRecOn with
  | nil => simp [roundSum]
  | append_singleton ps q ih =>
    have hstep : ∀ {S : Type} [LinearOrder S] [Field S] (r : Rounding S) (qs : List (S × S)) (q : S × S),
        roundSum r (qs ++ [q]) = r.rnd (roundSum r qs + r.rnd (q.1 * q.2)) := by
      intro S _ _ r qs q; unfold roundSum; simp
    rw [List.map_append, List.map_cons, List.map_nil, hstep, hstep, ih, ← Rat.cast_mul, hr, ← Rat.cast_add, hr]

/-- Six users have rated items 1 and 2; nobody has rated item 0. -/
def twinCounts {R : Type} [NatCast R] : SpRows R :=
  [[(1, (48510291 : Nat)), (2, (48510291 : Nat))], [(1, (15856302 : Nat)), (2, (15856301 : Nat))],
    [(1, (18273679 : Nat)), (2, (18273679 : Nat))], [(1, (36164782 : Nat)), (2, (36164782 : Nat))],
    [(1, (15856301 : Nat)), (2, (15856302 : Nat))], [(1, (18331955 : Nat)), (2, (18331955 : Nat))]]

/-- Their weights after division by the length `69526774` of both columns, in double precision. -/
def twinWeights : SpRows ℚ :=
  (twinCounts (R := ℚ)).map fun row => row.map fun e => (e.1, ieeeBits 53 (-1074) (e.2 / 69526774))

theorem twin_pairs (i j : Nat) : colPairs (twinWeights.map fun row => row.map fun e => (e.1, (e.2 : ℝ))) i j =
    (colPairs twinWeights i j).map fun q => ((q.1 : ℝ), (q.2 : ℝ)) := by
  unfold colPairs
  rw [List.flatMap_map, List.map_flatMap]
  apply List.flatMap_congr
  intro row _
  have hf : ∀ k, ((row.map fun e => (e.1, (e.2 : ℝ))).filter fun e => e.1 == k) =
      (row.filter fun e => e.1 == k).map fun e => (e.1, (e.2 : ℝ)) := by
    intro k; rw [List.filter_map]; rfl
  rw [hf, hf, List.flatMap_map, List.map_flatMap]
  apply List.flatMap_congr
  intro w _
  rw [List.map_map, List.map_map]
  rfl

theorem twin_length (i : Nat) (hi : i = 1 ∨ i = 2) : roundLength (ieee 53 (-1074)) twinCounts i = 69526774 := by
  have hd : (ieee 53 (-1074) : Rounding ℝ).ExactUpTo (2 ^ 53) := double_exact
  have hs : roundSum (ieee 53 (-1074) : Rounding ℝ) (colPairs twinCounts i i) = 69526774 ^ 2 := by
    rw [roundSum_int _ hd]
    · rcases hi with rfl | rfl <;> norm_num [colPairs, twinCounts]
    · intro p hp
      have : ∃ v : Nat, p = ((v : ℝ), (v : ℝ)) := by
        rcases hi with rfl | rfl <;>
        · simp [colPairs, twinCounts] at hp
          rcases hp with h | h | h | h | h | h <;> exact ⟨_, by rw [h]; norm_cast⟩
      obtain ⟨v, rfl⟩ := this
      exact ⟨v, v, by simp⟩
    · rcases hi with rfl | rfl <;> norm_num [colPairs, twinCounts]
  unfold roundLength
  rw [hs, Real.sqrt_sq (by norm_num)]
  have := hd 69526774 (by norm_num)
  exact_mod_cast this

theorem coalesce_two (a b : ℝ) : coalesce [(1, a), (2, b)] = [(1, a), (2, b)] := by
  unfold coalesce
  have h : (([(1, a), (2, b)] : List (Nat × ℝ)).map Prod.fst).dedup.insertionSort (· ≤ ·) = [1, 2] := by
    show ([1, 2] : List Nat).dedup.insertionSort (· ≤ ·) = [1, 2]
    decide
  rw [h]
  simp

theorem twin_normalize : userRows (twinCounts (R := ℝ)).length (roundNormalize (ieee 53 (-1074)) (itemUser 3 twinCounts)) =
    twinWeights.map fun row => row.map fun e => (e.1, (e.2 : ℝ)) := by
  rw [roundNormalize_rows _ 3 (by
    intro row hrow
    simp only [twinCounts, List.mem_cons, List.not_mem_nil, or_false] at hrow
    rcases hrow with h | h | h | h | h | h <;> subst h <;> simp)]
  unfold twinWeights twinCounts
  have hr : ∀ v : Nat, (ieee 53 (-1074) : Rounding ℝ).rnd ((v : ℝ) / 69526774) = ((ieeeBits 53 (-1074) ((v : ℚ) / 69526774) : ℚ) : ℝ) := by
    intro v
    rw [← ieeeBits_cast]
    push_cast
    rfl
  simp only [List.map_cons, List.map_nil, coalesce_two]
  have h1 := twin_length 1 (Or.inl rfl)
  have h2 := twin_length 2 (Or.inr rfl)
  unfold twinCounts at h1 h2
  rw [h1, h2]
  simp only [hr]

/-- Rounding to double precision by searching for the exponent, for numbers below 2. -/
def fastDouble (q : ℚ) : Nat → Nat → Option ℚ
  | 0, _ => none
  | t + 1, k =>
    if 2 ^ 52 ≤ |q * 2 ^ k| then
      if |q * 2 ^ k| < 2 ^ 53 ∧ k ≤ 1074 then some ((roundEven (q * 2 ^ k) : Int) / 2 ^ k) else none
    else fastDouble q t (k + 1)

theorem fastDouble_eq {q : ℚ} : ∀ {t k : Nat} {v : ℚ}, fastDouble q t k = some v → ieeeBits 53 (-1074) q = v
  | 0, k, v, h => by simp [fastDouble] at h
  | t + 1, k, v, h => by
    unfold fastDouble at h
    split_ifs at h with h1 h2
    · cases h
      have hq : 0 < |q| := by
        apply abs_pos.mpr
        rintro rfl
        norm_num at h1
      have h2k : (0 : ℚ) < 2 ^ k := by positivity
      rw [abs_mul, abs_of_pos h2k] at h1 h2
      have hlog : Int.log 2 |q| = 52 - k := by
        apply le_antisymm
        · rw [← Int.lt_add_one_iff, ← Int.lt_zpow_iff_log_lt (by norm_num) hq]
          have e : ((2 : Nat) : ℚ) ^ ((52 : Int) - k + 1) = 2 ^ 53 / 2 ^ k := by
            rw [show (52 : Int) - k + 1 = ((53 : Nat) : Int) - (k : Int) by push_cast; ring, zpow_sub₀ (by norm_num), zpow_natCast,
              zpow_natCast]
            norm_num
          rw [e, lt_div_iff₀ h2k]
          exact h2.1
        · rw [← Int.zpow_le_iff_le_log (by norm_num) hq]
          have e : ((2 : Nat) : ℚ) ^ ((52 : Int) - k) = 2 ^ 52 / 2 ^ k := by
            rw [show (52 : Int) - k = ((52 : Nat) : Int) - (k : Int) by push_cast; ring, zpow_sub₀ (by norm_num), zpow_natCast,
              zpow_natCast]
            norm_num
          rw [e, div_le_iff₀ h2k]
          exact h1
      have hu : ulp 53 (-1074) q = 1 / 2 ^ k := by
        unfold ulp
        rw [hlog]
        have h3 := h2.2
        have : max ((52 : Int) - k - ((53 : Nat) : Int) + 1) (-1074) = -(k : Int) := by omega
        rw [this, zpow_neg, zpow_natCast, one_div]
      unfold ieeeBits
      rw [hu, div_div_eq_mul_div, div_one, mul_one_div]
    · exact fastDouble_eq h

/-- A sum of rounded products in double precision. -/
def fastSum (s : ℚ) : List (ℚ × ℚ) → Option ℚ
  | [] => some s
  | p :: ps => do
    let v ← fastDouble (p.1 * p.2) 64 52
    let t ← fastDouble (s + v) 64 52
    fastSum t ps

theorem fastSum_eq : ∀ (ps : List (ℚ × ℚ)) (s v : ℚ), fastSum s ps = some v →
    (ps.map fun p => (ieee 53 (-1074)).rnd (p.1 * p.2)).foldl (fun s v => (ieee 53 (-1074) : Rounding ℚ).rnd (s + v)) s = v
  | [], s, v, h => by cases h; rfl
  | p :: ps, s, v, h => by
    unfold fastSum at h
    cases h1 : fastDouble (p.1 * p.2) 64 52 with
    | none => rw [h1] at h; cases h
    | some a =>
      rw [h1] at h
      cases h2 : fastDouble (s + a) 64 52 with
      | none =>
        have : (none : Option ℚ) = some v := by
          rw [← h]; simp only [bind, Option.bind, h2]
        cases this
      | some b =>
        have h3 : fastSum b ps = some v := by
          rw [← h]; simp only [bind, Option.bind, h2]
        rw [List.map_cons, List.foldl_cons]
        have e1 : (ieee 53 (-1074) : Rounding ℚ).rnd (p.1 * p.2) = a := fastDouble_eq h1
        have e2 : (ieee 53 (-1074) : Rounding ℚ).rnd (s + a) = b := fastDouble_eq h2
        rw [e1, e2]
        exact fastSum_eq ps b v h3

/-- The weights as numbers. -/
def twinNumbers : SpRows ℚ :=
  [[(1, 6284512164227103 / 9007199254740992), (2, 6284512164227103 / 9007199254740992)],
    [(1, 4108370440352895 / 18014398509481984), (2, 8216740362505463 / 36028797018963968)],
    [(1, 4734713216240297 / 18014398509481984), (2, 4734713216240297 / 18014398509481984)],
    [(1, 4685150464168961 / 9007199254740992), (2, 4685150464168961 / 9007199254740992)],
    [(1, 8216740362505463 / 36028797018963968), (2, 4108370440352895 / 18014398509481984)],
    [(1, 4749812537367127 / 18014398509481984), (2, 4749812537367127 / 18014398509481984)]]

theorem twinWeights_eq : twinWeights = twinNumbers := by
  have h : ∀ {v : Nat} {w : ℚ}, fastDouble ((v : ℚ) / 69526774) 64 52 = some w → ieeeBits 53 (-1074) ((v : ℚ) / 69526774) = w :=
    fun h => fastDouble_eq h
  unfold twinWeights twinCounts twinNumbers
  simp only [List.map_cons, List.map_nil]
  have h0 := h (v := 15856301) (w := 8216740362505463 / 36028797018963968) (by decide +kernel)
  have h1 := h (v := 15856302) (w := 4108370440352895 / 18014398509481984) (by decide +kernel)
  have h2 := h (v := 18273679) (w := 4734713216240297 / 18014398509481984) (by decide +kernel)
  have h3 := h (v := 18331955) (w := 4749812537367127 / 18014398509481984) (by decide +kernel)
  have h4 := h (v := 36164782) (w := 4685150464168961 / 9007199254740992) (by decide +kernel)
  have h5 := h (v := 48510291) (w := 6284512164227103 / 9007199254740992) (by decide +kernel)
  rw [h0, h1, h2, h3, h4, h5]

/-- Item 1 is less similar to itself than to item 2. -/
theorem twin_sums : roundSum (ieee 53 (-1074)) (colPairs twinWeights 1 2) = 1 ∧
    roundSum (ieee 53 (-1074)) (colPairs twinWeights 1 1) < 1 := by
  rw [twinWeights_eq]
  have h1 : fastSum 0 (colPairs twinNumbers 1 2) = some 1 := by decide +kernel
  have h2 : fastSum 0 (colPairs twinNumbers 1 1) = some (9007199254740991 / 9007199254740992) := by decide +kernel
  refine ⟨fastSum_eq _ _ _ h1, ?_⟩
  have := fastSum_eq _ _ _ h2
  unfold roundSum
  rw [this]
  norm_num

/-- **An item need not be its own nearest neighbour.**  Exactly, the cosine of item 1 with itself is `1` and with item 2 less than
`1`; in double precision they are `1 - 2^-53` and `1`, so with `K = 1` the row of item 1 lists item 2 and not item 1 — for every
heap. -/
theorem C83_self_violated (H : HeapImpl (ℝ × Nat) pairLt) :
    (∃ sim, roundCosineFit H (ieee 53 (-1074)) 3 1 twinCounts = .ok sim ∧ sim[1]? = some [(2, 1)]) ∧
      Spec.cosine (Spec.column (twinCounts (R := ℝ)) 1) (Spec.column twinCounts 1) = 1 ∧
      Spec.cosine (Spec.column (twinCounts (R := ℝ)) 1) (Spec.column twinCounts 2) < 1 := by
  have hcast : ∀ i j, roundSum (ieee 53 (-1074)) (colPairs (twinWeights.map fun row => row.map fun e => (e.1, (e.2 : ℝ))) i j) =
      ((roundSum (ieee 53 (-1074)) (colPairs twinWeights i j) : ℚ) : ℝ) := fun i j => by rw [twin_pairs, roundSum_cast]
  obtain ⟨s1, s2⟩ := twin_sums
  set W : SpRows ℝ := twinWeights.map fun row => row.map fun e => (e.1, (e.2 : ℝ)) with hW
  have hmem : ∀ row ∈ W, row.map Prod.fst = [1, 2] := by
    intro row hrow
    rw [hW] at hrow
    unfold twinWeights twinCounts at hrow
    simp only [List.map_cons, List.map_nil, List.mem_cons, List.not_mem_nil, or_false] at hrow
    rcases hrow with h | h | h | h | h | h <;> subst h <;> rfl
  have hst : ∀ row ∈ W, ∀ i, Spec.Stored row i ↔ i = 1 ∨ i = 2 := by
    intro row hrow i
    have : Spec.Stored row i ↔ i ∈ row.map Prod.fst := by
      unfold Spec.Stored; simp
    rw [this, hmem row hrow]; simp
  have hlen : W ≠ [] := by rw [hW]; unfold twinWeights twinCounts; simp
  have hco : ∀ j, Spec.CoRated W 1 j ↔ j = 1 ∨ j = 2 := by
    intro j
    constructor
    · rintro ⟨row, hrow, -, h⟩; exact (hst row hrow j).mp h
    · intro h
      obtain ⟨row, hrow⟩ := List.exists_mem_of_ne_nil W hlen
      exact ⟨row, hrow, (hst row hrow 1).mpr (Or.inl rfl), (hst row hrow j).mpr h⟩
  refine ⟨?_, ?_, ?_⟩
  · obtain ⟨sim, e, hl, h⟩ := roundFit_rows H (ieee 53 (-1074)) 3 1 le_rfl (by norm_num) W (by
      intro row hrow x hx
      rcases (hst row hrow x.1).mp ⟨x.2, hx⟩ with h | h <;> omega)
    refine ⟨sim, by unfold roundCosineFit; rw [twin_normalize]; exact e, ?_⟩
    obtain ⟨row, out, h1, -, h3, h4⟩ := h 1 (by norm_num)
    have hrow : ∀ p, p ∈ row ↔ p ∈ out := fun p => (h4 p).trans ⟨fun h => h.elim id fun h => absurd h.1 (by norm_num), Or.inl⟩
    have hle := h3.atMost
    have hne : out ≠ [] := by
      rintro rfl
      have := h3.complete (by norm_num) 1 ((hco 1).mpr (Or.inl rfl))
      simp at this
    obtain ⟨p, rfl⟩ : ∃ p, out = [p] := by
      match out, hle, hne with
      | [p], _, _ => exact ⟨p, rfl⟩
    obtain ⟨hp1, hp2⟩ := h3.mem p (by simp)
    have hp : p = (2, 1) := by
      obtain ⟨c, v⟩ := p
      simp only [Option.some.injEq] at hp2
      rcases (hco c).mp hp1 with hc | hc
      · exfalso
        have hc : c = 1 := hc
        subst hc
        have hb := h3.best 2 _ ((hco 2).mpr (Or.inr rfl)) rfl (by simp) (1, v) (by simp)
        rw [← hp2, hcast, hcast, s1] at hb
        exact absurd (Rat.cast_le.mp hb) (not_le.mpr s2)
      · have hc : c = 2 := hc
        subst hc
        rw [hcast, s1] at hp2
        rw [← hp2]; simp
    rw [hp] at hrow
    rw [h1]
    have hall : ∀ q, q ∈ row ↔ q = (2, 1) := fun q => (hrow q).trans List.mem_singleton
    have hnd : (row.map Prod.fst).Nodup := by
      obtain ⟨row', out', h1', h2', -⟩ := h 1 (by norm_num)
      rw [h1] at h1'
      cases h1'
      exact h2'.imp fun h => Nat.ne_of_lt h
    congr 1
    match row, hall, hnd with
    | [], hall, _ => exact absurd ((hall _).mpr rfl) (by simp)
    | [a], hall, _ => rw [(hall a).mp (by simp)]
    | a :: b :: l, hall, hnd =>
      exfalso
      rw [(hall a).mp (by simp), (hall b).mp (by simp)] at hnd
      simp at hnd
  · apply cosine_self
    intro h
    have := congrFun h (⟨0, by simp [twinCounts]⟩ : Fin (twinCounts (R := ℝ)).length)
    simp [Spec.column, Spec.cell, twinCounts, Spec.sumAt] at this
  · have e : ∀ i j, Spec.similarity (twinCounts (R := ℝ)) i j = ∑ u, Spec.column twinCounts i u * Spec.column twinCounts j u :=
      similarity_eq_dot _
    have h12 : Spec.similarity (twinCounts (R := ℝ)) 1 2 = 69526774 ^ 2 - 1 := by
      norm_num [Spec.similarity, twinCounts, Spec.cell, Spec.sumAt]
    have h11 : Spec.length (Spec.column (twinCounts (R := ℝ)) 1) = 69526774 := by
      have := similarity_self (twinCounts (R := ℝ)) 1
      have h : Spec.similarity (twinCounts (R := ℝ)) 1 1 = 69526774 ^ 2 := by
        norm_num [Spec.similarity, twinCounts, Spec.cell, Spec.sumAt]
      rw [h] at this
      exact ((sq_eq_sq₀ (Real.sqrt_nonneg _) (by norm_num)).mp this.symm)
    have h22 : Spec.length (Spec.column (twinCounts (R := ℝ)) 2) = 69526774 := by
      have := similarity_self (twinCounts (R := ℝ)) 2
      have h : Spec.similarity (twinCounts (R := ℝ)) 2 2 = 69526774 ^ 2 := by
        norm_num [Spec.similarity, twinCounts, Spec.cell, Spec.sumAt]
      rw [h] at this
      exact ((sq_eq_sq₀ (Real.sqrt_nonneg _) (by norm_num)).mp this.symm)
    unfold Spec.cosine
    split_ifs
    · norm_num
    · rw [← e, h12, h11, h22]
      norm_num

/-! ## Examples -/

/-- With four binary digits (`5 * 5 = 25` becomes `26`, ties go up here) and `K = 2`. -/
example : roundKnnFit (R := Rat) insertionHeap (binaryFloat 4 (-10)) 3 2 [[(0, 5), (1, 5)], [(1, 1), (2, 3)], [(0, 5), (2, 1)]] =
    .ok [[(0, 52), (1, 26)], [(0, 26), (1, 28)], [(0, 5), (2, 10)]] := by
  decide +kernel

/-- The exact similarities of the same matrix, and what the theorem allows for item 0. -/
example : Spec.similarity ([[(0, 5), (1, 5)], [(1, 1), (2, 3)], [(0, 5), (2, 1)]] : SpRows Rat) 0 0 = 50 ∧
    Spec.coRaters ([[(0, 5), (1, 5)], [(1, 1), (2, 3)], [(0, 5), (2, 1)]] : SpRows Rat) 0 0 = 2 ∧
    Spec.sumError (2 ^ (-4 : Int)) (2 ^ (-11 : Int)) 2 (Spec.similarityMass ([[(0, 5), (1, 5)], [(1, 1), (2, 3)], [(0, 5), (2, 1)]] : SpRows Rat) 0 0) < 10 := by
  decide +kernel

/-- The scorer on this matrix for a user with items 0 and 2: exact scores `0`, `26 + 0`, `0 + 10`. -/
example : roundScorer (R := Rat) insertionHeap (binaryFloat 4 (-10)) [[(0, 52), (1, 26)], [(0, 26), (1, 28)], [(0, 5), (2, 10)]]
    (Accum.new 3) [(0, 1), (2, 3 / 2)] 2 true = .ok ([(1, 26), (2, 0)], Accum.new 3) := by
  decide +kernel

/-- The hypotheses of `C83_cosine_partial` for doubles without underflow and a thousand ratings per item. -/
example : (freeFloat 53 : Rounding ℝ).η = 0 ∧ (1 + (freeFloat 53 : Rounding ℝ).u) ^ (1000 + 2) < 2 :=
  ⟨rfl, (C83_cosine_double 1000 (by norm_num)).2⟩

end Implicit
