import Verif.Props.C79
/-!
# C79: the way a matrix is stored does not matter, item-item models
-/

namespace Implicit

open Spec

section coalesce

variable {R : Type} [LinearOrder R] [Field R]

theorem coalesce_perm {es es' : List (Nat × R)} (h : es'.Perm es) : coalesce es' = coalesce es := by
  have hc : (es'.map Prod.fst).dedup.insertionSort (· ≤ ·) = (es.map Prod.fst).dedup.insertionSort (· ≤ ·) :=
    sort_perm_eq (h.map _).dedup
  unfold coalesce
  rw [hc]
  refine List.map_congr_left fun c _ => ?_
  rw [((h.filter _).map _).sum_eq]

theorem cooToCsr_perm (n : Nat) {es es' : List (Nat × Nat × R)} (h : es'.Perm es) : cooToCsr n es' = cooToCsr n es := by
  unfold cooToCsr
  refine List.map_congr_left fun r _ => ?_
  exact coalesce_perm ((h.filter _).map _)

end coalesce

/-! ## Cosine, TF-IDF and BM25 -/

/-- The same triples in any order. -/
def Coo.Same (X X' : Coo) : Prop := X'.nrows = X.nrows ∧ X'.entries.Perm X.entries

theorem itemUser_perm (n : Nat) {C C' : SpRows ℝ} (h : List.Forall₂ (fun row row' => row'.Perm row) C C') :
    (itemUser n C).Same (itemUser n C') := by
  refine ⟨rfl, ?_⟩
  unfold itemUser
  simp only
  generalize 0 = k
  induction h generalizing k with
  | nil => exact .refl _
  | cons h _ ih =>
    rw [List.zipIdx_cons, List.zipIdx_cons, List.flatMap_cons, List.flatMap_cons]
    exact (h.map _).append (ih (k + 1))

theorem bincountW_perm {a b : List (Nat × ℝ)} (h : b.Perm a) (k : Nat) : bincountW b k = bincountW a k := by
  unfold bincountW
  exact ((h.filter _).map _).sum_eq

theorem Coo.Same.idf {X X' : Coo} (h : X.Same X') (c : Nat) : Implicit.idf X' c = Implicit.idf X c := by
  unfold Implicit.idf bincount
  rw [h.1, (h.2.map _).count_eq]

theorem Coo.Same.rowSum {X X' : Coo} (h : X.Same X') (r : Nat) : Implicit.rowSum X' r = Implicit.rowSum X r :=
  bincountW_perm (h.2.map _) r

theorem Coo.Same.tfidf {X X' : Coo} (h : X.Same X') : (tfidfWeight X).Same (tfidfWeight X') := by
  refine ⟨h.1, ?_⟩
  unfold tfidfWeight
  simp only [h.idf]
  exact h.2.map _

theorem Coo.Same.normalize {X X' : Coo} (h : X.Same X') : (normalizeRows X).Same (normalizeRows X') := by
  refine ⟨h.1, ?_⟩
  unfold normalizeRows
  simp only [bincountW_perm (h.2.map fun e => (e.1, e.2.2 ^ 2))]
  exact h.2.map _

theorem Coo.Same.bm25 {X X' : Coo} (h : X.Same X') (K1 B : ℝ) : (bm25Weight K1 B X).Same (bm25Weight K1 B X') := by
  refine ⟨h.1, ?_⟩
  unfold bm25Weight lengthNorm averageLength
  have hf : Implicit.rowSum X' = Implicit.rowSum X := funext h.rowSum
  simp only [hf, h.idf, h.1]
  exact h.2.map _

theorem Coo.Same.userRows {X X' : Coo} (h : X.Same X') (m : Nat) : Implicit.userRows m X' = Implicit.userRows m X :=
  cooToCsr_perm m (h.2.map _)

/-- **C79** (Cosine, TF-IDF and BM25).  Two canonical ways to store the ratings give exactly the same similarity matrix, also where
similarities tie. -/
theorem C79_weighted (H : HeapImpl (ℝ × Nat) pairLt) (n K : Nat) (K1 B : ℝ) (callback : Bool) {C C' : SpRows ℝ} (h : Canonical C)
    (h' : Canonical C') (hs : SameTable C C') :
    cosineFit H n K C' callback = cosineFit H n K C callback ∧ tfidfFit H n K C' callback = tfidfFit H n K C callback ∧
      bm25Fit H n K K1 B C' callback = bm25Fit H n K K1 B C callback := by
  have hX := itemUser_perm n (canonical_perm h h' hs)
  unfold cosineFit tfidfFit bm25Fit
  rw [← hs.1, hX.normalize.userRows, hX.tfidf.normalize.userRows, (hX.bm25 K1 B).userRows]
  exact ⟨rfl, rfl, rfl⟩

/-- The entries of the first row in another order. -/
example (H : HeapImpl (ℝ × Nat) pairLt) :
    tfidfFit H 3 2 [[(2, 3), (0, 2)], [(1, 4)]] false = tfidfFit H 3 2 [[(0, 2), (2, 3)], [(1, 4)]] false := by
  refine (C79_weighted H 3 2 1 1 false ?_ ?_ ⟨rfl, fun u i => ?_⟩).2.1
  · simp only [Canonical]
    norm_num
    rintro a b (⟨-, rfl⟩ | ⟨-, rfl⟩) <;> norm_num
  · simp only [Canonical]
    norm_num
    rintro a b (⟨-, rfl⟩ | ⟨-, rfl⟩) <;> norm_num
  · rcases u with - | - | u <;> simp [entry, cell, Spec.sumAt, add_comm]

/-! ## The model without weights -/

variable {R : Type} [LinearOrder R] [Field R]

omit [LinearOrder R] [Field R] in
theorem coRated_same {C C' : SpRows R} (hs : SameStored C C') (i j : Nat) : CoRated C' i j ↔ CoRated C i j := by
  have key : ∀ {C C' : SpRows R}, SameStored C C' → CoRated C i j → CoRated C' i j := by
    rintro C C' hs ⟨row, hr, h1, h2⟩
    obtain ⟨u, hu⟩ := List.getElem?_of_mem hr
    have hl : u < C.length := (List.getElem?_eq_some_iff.mp hu).1
    have hl' : u < C'.length := by have := hs.1; omega
    have hu' : C'[u]? = some (C'[u]'hl') := List.getElem?_eq_getElem hl'
    have hst : ∀ x, Stored row x → Stored (C'[u]'hl') x := by
      intro x hx
      have := (hs.2 u x).mp
      unfold StoredAt at this
      rw [List.getD_eq_getElem?_getD, List.getD_eq_getElem?_getD, hu, hu'] at this
      exact this hx
    exact ⟨_, List.mem_of_getElem? hu', hst i h1, hst j h2⟩
  exact ⟨key ⟨hs.1.symm, fun u x => (hs.2 u x).symm⟩, key hs⟩

omit [LinearOrder R] in
theorem similarity_same {C C' : SpRows R} (hs : SameTable C C') (i j : Nat) : similarity C' i j = similarity C i j := by
  unfold similarity
  congr 1
  refine List.ext_getElem (by simp [hs.1]) fun u h1 h2 => ?_
  have l1 : u < C'.length := by simpa using h1
  have l2 : u < C.length := by simpa using h2
  have key : ∀ x, cell (C'[u]'l1) x = cell (C[u]'l2) x := by
    intro x
    have := hs.2 u x
    unfold entry at this
    rw [List.getD_eq_getElem?_getD, List.getD_eq_getElem?_getD, List.getElem?_eq_getElem l1,
      List.getElem?_eq_getElem l2] at this
    exact this.symm
  simp only [List.getElem_map, key]

omit [LinearOrder R] [Field R] in
theorem row_perm_out {row out : List (Nat × R)} (h : (row.map Prod.fst).Pairwise (· < ·)) (hn : (out.map Prod.fst).Nodup)
    (hm : ∀ p, p ∈ row ↔ p ∈ out) : row.Perm out :=
  (List.perm_ext_iff_of_nodup (List.Nodup.of_map _ (h.imp fun hab => ne_of_lt hab)) (List.Nodup.of_map _ hn)).mpr hm

/-- **C79** (item-item model without weights).  Two ways to store the ratings with the same numbers in the same cells - in any order,
also in several parts - both train, and every item but the first gets neighbours with the same similarities.  Where no two neighbours
of an item tie, its row is the same. -/
theorem C79_knn (H : HeapImpl (R × Nat) pairLt) (n K : Nat) (hK : 1 ≤ K) (hnK : n * K ≤ 2 ^ 31) {C C' : SpRows R}
    (hC : ∀ r ∈ C, ∀ e ∈ r, e.1 < n) (hC' : ∀ r ∈ C', ∀ e ∈ r, e.1 < n) (hs : SameTable C C') (hst : SameStored C C') :
    ∃ sim sim', knnFit H n K C false = .ok sim ∧ knnFit H n K C' false = .ok sim' ∧ sim.length = n ∧ sim'.length = n ∧
      ∀ i < n, ∃ row row', sim[i]? = some row ∧ sim'[i]? = some row' ∧
        (0 < i → (row'.map Prod.snd).Perm (row.map Prod.snd)) ∧
        ((∀ j j', CoRated C i j → CoRated C i j' → similarity C i j = similarity C i j' → j = j') → row' = row) := by
  have hco : CoRated C' = CoRated C := funext fun i => funext fun j => propext (coRated_same hst i j)
  have hsim : similarity C' = similarity C := funext fun i => funext fun j => similarity_same hs i j
  have hfew : Few C' K = Few C K := by
    funext i
    unfold Few
    rw [hco]
  obtain ⟨sim, e, hl, hrows⟩ := knnFit_rows H n K hK hnK C hC
  obtain ⟨sim', e', hl', hrows'⟩ := knnFit_rows H n K hK hnK C' hC'
  refine ⟨sim, sim', e, e', hl, hl', fun i hi => ?_⟩
  obtain ⟨row, out, hg, hp, hr, hm⟩ := hrows i hi
  obtain ⟨row', out', hg', hp', hr', hm'⟩ := hrows' i hi
  rw [hco, hsim] at hr'
  rw [hfew] at hm'
  refine ⟨row, row', hg, hg', fun h0 => ?_, fun hinj => ?_⟩
  · have a : row.Perm out := row_perm_out hp hr.distinct fun p => by
      rw [hm]
      exact or_iff_left fun h => by omega
    have a' : row'.Perm out' := row_perm_out hp' hr'.distinct fun p => by
      rw [hm']
      exact or_iff_left fun h => by omega
    refine (a'.map _).trans (.trans ?_ (a.map _).symm)
    rw [ranking_scores hr' hr (ranking_length hr' hr)]
  · have ho : out' = out := ranking_unique hr' hr (ranking_length hr' hr) fun j j' h1 h2 h3 => hinj j j' h1 h2 (Option.some.inj h3)
    subst ho
    exact sorted_rows_eq hp' hp fun p => (hm' p).trans (hm p).symm

/-- The second matrix has the entries of a row in another order and one of them in two parts. -/
example :
    let fit (C : SpRows Rat) := (knnFit insertionHeap 3 2 C false).toOption
    fit [[(1, 3), (0, 1)], [(2, 1), (1, 1)], [(2, 1), (0, 1), (2, 3)]] = some [[(1, 3), (2, 4)], [(0, 3), (1, 10)], [(0, 4), (2, 17)]] ∧
      fit [[(0, 1), (1, 3)], [(1, 1), (2, 1)], [(0, 1), (2, 4)]] = some [[(1, 3), (2, 4)], [(0, 3), (1, 10)], [(0, 4), (2, 17)]] := by
  decide +kernel

/-- **C79** violated where neighbours tie at the cut-off: which of them is kept depends on the order of the entries in the rows. -/
theorem C79_knn_ties_violated :
    let C : SpRows Rat := [[(0, 1), (1, 1), (2, 1)]]
    let C' : SpRows Rat := [[(2, 1), (1, 1), (0, 1)]]
    Canonical C ∧ Canonical C' ∧ SameTable C C' ∧
      (knnFit insertionHeap 3 2 C false).toOption ≠ none ∧
      (knnFit insertionHeap 3 2 C' false).toOption ≠ (knnFit insertionHeap 3 2 C false).toOption := by
  refine ⟨?_, ?_, ⟨rfl, fun u i => ?_⟩, by decide +kernel, by decide +kernel⟩
  · intro row hr
    simp only [List.mem_singleton] at hr
    subst hr
    exact ⟨by decide, by decide +kernel⟩
  · intro row hr
    simp only [List.mem_singleton] at hr
    subst hr
    exact ⟨by decide, by decide +kernel⟩
  · rcases u with - | u
    · simp [entry, cell, sumAt]
      split_ifs <;> simp_all
    · simp [entry]

/-- A single user and a single item: the similarity of the item to itself is the square of the weight. -/
theorem knnFit_single (H : HeapImpl (ℝ × Nat) pairLt) (v : ℝ) :
    ∃ row, knnFit H 1 1 [[(0, v)]] false = .ok [row] ∧ ∀ w, w ≠ 0 → ((0, w) ∈ row ↔ w = v * v) := by
  obtain ⟨sim, e, hl, hrows⟩ := knnFit_rows H 1 1 le_rfl (by norm_num) [[(0, v)]] (by simp)
  obtain ⟨row, out, hg, hp, hr, hm⟩ := hrows 0 (by norm_num)
  have hs : sim = [row] := by
    match sim, hl with
    | [r], _ => simpa using hg
  subst hs
  refine ⟨row, e, fun w hw => ?_⟩
  have hsim : similarity ([[(0, v)]] : SpRows ℝ) 0 0 = v * v := by simp [similarity, cell, sumAt]
  have hco : CoRated ([[(0, v)]] : SpRows ℝ) 0 0 := ⟨_, List.mem_singleton.mpr rfl, ⟨v, by simp⟩, ⟨v, by simp⟩⟩
  rw [hm]
  constructor
  · rintro (h | ⟨-, h, -⟩)
    · have := (hr.mem _ h).2
      rw [hsim] at this
      exact (Option.some.inj this).symm
    · exact absurd (Prod.mk.inj h).2 hw
  · rintro rfl
    left
    have h0 : 0 ∈ out.map Prod.fst := by
      by_contra hn
      rcases Nat.lt_or_ge out.length 1 with hlt | hge
      · exact hn (hr.complete hlt 0 hco)
      · obtain ⟨p, hp'⟩ := List.exists_mem_of_length_pos (Nat.lt_of_lt_of_le Nat.zero_lt_one hge)
        obtain ⟨r, hr1, -, ⟨x, hx⟩⟩ := (hr.mem p hp').1
        simp only [List.mem_singleton] at hr1
        subst hr1
        simp only [List.mem_singleton, Prod.mk.injEq] at hx
        exact hn (hx.1 ▸ List.mem_map_of_mem hp')
    obtain ⟨q, hq, hq0⟩ := List.mem_map.mp h0
    have := (hr.mem q hq).2
    rw [hq0, hsim] at this
    have hqq : q = (0, v * v) := Prod.ext hq0 (Option.some.inj this).symm
    exact hqq ▸ hq

/-- **C79** violated by `CosineRecommender` for numbers stored in several parts: the norm squares every part.  One user rated one item
with 3; the similarity of the item to itself is 1, and 9/5 if the 3 is stored as 1 and 2. -/
theorem C79_cosine_parts_violated (H : HeapImpl (ℝ × Nat) pairLt) :
    SameTable ([[(0, 1), (0, 2)]] : SpRows ℝ) [[(0, 3)]] ∧
      ∃ row row', cosineFit H 1 1 [[(0, 3)]] false = .ok [row] ∧ cosineFit H 1 1 [[(0, 1), (0, 2)]] false = .ok [row'] ∧
        ((0, 1) ∈ row ∧ (0, 9 / 5) ∉ row) ∧ ((0, 9 / 5) ∈ row' ∧ (0, 1) ∉ row') := by
  have h9 : Real.sqrt (3 ^ 2) = 3 := Real.sqrt_sq (by norm_num)
  have h5 : Real.sqrt 5 ≠ 0 := by positivity
  have h55 : Real.sqrt 5 * Real.sqrt 5 = 5 := Real.mul_self_sqrt (by norm_num)
  have w1 : userRows 1 (normalizeRows (itemUser 1 [[(0, 3)]])) = [[(0, (1 : ℝ))]] := by
    simp [userRows, normalizeRows, itemUser, bincountW, cooToCsr, cooRow, coalesce, h9]
  have w2 : userRows 1 (normalizeRows (itemUser 1 [[(0, 1), (0, 2)]])) = [[(0, 3 / Real.sqrt 5)]] := by
    simp [userRows, normalizeRows, itemUser, bincountW, cooToCsr, cooRow, coalesce]
    norm_num
    field_simp
    norm_num
  obtain ⟨row, e, h⟩ := knnFit_single H 1
  obtain ⟨row', e', h'⟩ := knnFit_single H (3 / Real.sqrt 5)
  have hv : 3 / Real.sqrt 5 * (3 / Real.sqrt 5) = 9 / 5 := by
    rw [div_mul_div_comm, h55]
    norm_num
  refine ⟨⟨rfl, fun u i => ?_⟩, row, row', ?_, ?_, ⟨?_, ?_⟩, ?_, ?_⟩
  · rcases u with - | u
    · simp [entry, cell, sumAt]
      split_ifs <;> norm_num
    · simp [entry]
  · unfold cosineFit
    simp only [List.length_singleton, w1]
    exact e
  · unfold cosineFit
    simp only [List.length_singleton, w2]
    exact e'
  · exact (h 1 one_ne_zero).mpr (by norm_num)
  · intro hc
    have := (h (9 / 5) (by norm_num)).mp hc
    norm_num at this
  · exact (h' (9 / 5) (by norm_num)).mpr hv.symm
  · intro hc
    have := (h' 1 one_ne_zero).mp hc
    rw [hv] at this
    norm_num at this

end Implicit
