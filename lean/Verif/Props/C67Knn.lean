import Verif.Props.C67
import Verif.Props.C25
import Verif.Props.C79Knn
/-!
# C67 — numbers of users and items do not matter, item-item models
-/

namespace Implicit

open Spec

/-! ## What two items have in common -/

section common

variable {R : Type} {σ τ : Equiv.Perm Nat} {C C' : SpRows R}

theorem renamedMatrix_symm (h : RenamedMatrix σ τ C C') : RenamedMatrix σ.symm τ.symm C' C := by
  intro v
  have hv := h (σ.symm v)
  rw [Equiv.apply_symm_apply] at hv
  generalize C[σ.symm v]? = a at hv
  generalize C'[v]? = b at hv
  cases hv with
  | none => exact .none
  | some hp =>
    refine .some ?_
    have := hp.map fun e : Nat × R => (τ.symm e.1, e.2)
    rw [List.map_map] at this
    simpa [Function.comp_def] using this.symm

theorem renamedMatrix_mem (h : RenamedMatrix σ τ C C') {row : List (Nat × R)} (hr : row ∈ C) :
    ∃ row' ∈ C', row'.Perm (row.map fun e => (τ e.1, e.2)) := by
  obtain ⟨u, hu⟩ := List.getElem?_of_mem hr
  have hv := h u
  rw [hu] at hv
  generalize hb : C'[σ u]? = b at hv
  cases hv with
  | some hp => exact ⟨_, List.mem_of_getElem? hb, hp⟩

theorem renamedMatrix_lt_iff (h : RenamedMatrix σ τ C C') (u : Nat) : σ u < C'.length ↔ u < C.length := by
  have hu := h u
  rw [← not_iff_not, not_lt, not_lt, ← List.getElem?_eq_none_iff, ← List.getElem?_eq_none_iff]
  generalize C[u]? = a at hu ⊢
  generalize C'[σ u]? = b at hu ⊢
  cases hu <;> simp

theorem renamedMatrix_columns (h : RenamedMatrix σ τ C C') {n : Nat} (hτ : ∀ i, τ i < n ↔ i < n)
    (hC : ∀ r ∈ C, ∀ e ∈ r, e.1 < n) : ∀ r ∈ C', ∀ e ∈ r, e.1 < n := by
  intro r' hr' e he
  obtain ⟨r, hr, hp⟩ := renamedMatrix_mem (renamedMatrix_symm h) hr'
  have := hC r hr (τ.symm e.1, e.2) (hp.mem_iff.mpr (List.mem_map.mpr ⟨e, he, rfl⟩))
  rw [← hτ] at this
  simpa using this

theorem stored_renamed {row row' : List (Nat × R)} (hp : row'.Perm (row.map fun e => (τ e.1, e.2))) (i : Nat) :
    Stored row' (τ i) ↔ Stored row i := by
  unfold Stored
  refine exists_congr fun v => ?_
  rw [hp.mem_iff, List.mem_map]
  constructor
  · rintro ⟨e, he, hev⟩
    simp only [Prod.mk.injEq, EmbeddingLike.apply_eq_iff_eq] at hev
    rw [← hev.1, ← hev.2]
    exact he
  · exact fun he => ⟨_, he, rfl⟩

theorem coRated_renamed (h : RenamedMatrix σ τ C C') (i j : Nat) : CoRated C' (τ i) (τ j) ↔ CoRated C i j := by
  constructor
  · rintro ⟨row', hr', h1, h2⟩
    obtain ⟨row, hr, hp⟩ := renamedMatrix_mem (renamedMatrix_symm h) hr'
    refine ⟨row, hr, ?_, ?_⟩
    · simpa using (stored_renamed hp (τ i)).mpr h1
    · simpa using (stored_renamed hp (τ j)).mpr h2
  · rintro ⟨row, hr, h1, h2⟩
    obtain ⟨row', hr', hp⟩ := renamedMatrix_mem h hr
    exact ⟨row', hr', (stored_renamed hp i).mpr h1, (stored_renamed hp j).mpr h2⟩

theorem sumAt_renamed [AddCommMonoid R] {row row' : List (Nat × R)} (hp : row'.Perm (row.map fun e => (τ e.1, e.2)))
    (i : Nat) : Spec.sumAt row' (τ i) = Spec.sumAt row i := by
  have hperm : ∀ {a b : List (Nat × R)}, a.Perm b → ∀ k, Spec.sumAt a k = Spec.sumAt b k := by
    intro a b h k
    induction h with
    | nil => rfl
    | cons x _ ih => simp only [Spec.sumAt, ih]
    | swap x y l => simp only [Spec.sumAt]; rw [← add_assoc, ← add_assoc, add_comm (ite _ _ _)]
    | trans _ _ ih1 ih2 => rw [ih1, ih2]
  rw [hperm hp]
  clear hp
  induction row with
  | nil => rfl
  | cons e row ih =>
    simp only [List.map_cons, Spec.sumAt, ih, EmbeddingLike.apply_eq_iff_eq]

theorem similarity_renamed [Semiring R] (h : RenamedMatrix σ τ C C') (i j : Nat) :
    similarity C' (τ i) (τ j) = similarity C i j := by
  unfold similarity
  refine List.Perm.sum_eq (Spec.Renamed.perm (σ := σ) fun u => ?_)
  rw [List.getElem?_map, List.getElem?_map]
  have hu := h u
  generalize C[u]? = a at hu ⊢
  generalize C'[σ u]? = b at hu ⊢
  cases hu with
  | none => rfl
  | some hp =>
    simp only [Option.map_some, cell]
    rw [sumAt_renamed hp, sumAt_renamed hp]

end common

/-! ## The model without weights -/

section knn

variable {R : Type} [LinearOrder R] [Field R] {σ τ : Equiv.Perm Nat} {C C' : SpRows R}

/-- **C67** (item-item model).  On ratings with users and items renamed the model trains, and the neighbours of the renamed item have
the same similarities; where no two neighbours of an item tie they are the renamed neighbours.  The row of item 0 is excepted: it can
hold one more stored zero (see `C67_knn_first_violated`); its other entries are renamed. -/
theorem C67_knn (H : HeapImpl (R × Nat) pairLt) (n K : Nat) (hK : 1 ≤ K) (hnK : n * K ≤ 2 ^ 31)
    (h : RenamedMatrix σ τ C C') (hτ : ∀ i, τ i < n ↔ i < n) (hC : ∀ r ∈ C, ∀ e ∈ r, e.1 < n) :
    ∃ sim sim', knnFit H n K C false = .ok sim ∧ knnFit H n K C' false = .ok sim' ∧ sim.length = n ∧ sim'.length = n ∧
      ∀ i < n, ∃ row row', sim[i]? = some row ∧ sim'[τ i]? = some row' ∧
        (0 < i → 0 < τ i → (row'.map Prod.snd).Perm (row.map Prod.snd)) ∧
        ((∀ j j', CoRated C i j → CoRated C i j' → similarity C i j = similarity C i j' → j = j') →
          (∀ p : Nat × R, p.2 ≠ 0 → ((τ p.1, p.2) ∈ row' ↔ p ∈ row)) ∧
          (0 < i → 0 < τ i → row'.Perm (row.map fun p => (τ p.1, p.2)))) := by
  obtain ⟨sim, e, hl, hrows⟩ := knnFit_rows H n K hK hnK C hC
  obtain ⟨sim', e', hl', hrows'⟩ := knnFit_rows H n K hK hnK C' (renamedMatrix_columns h hτ hC)
  refine ⟨sim, sim', e, e', hl, hl', fun i hi => ?_⟩
  obtain ⟨row, out, hg, hp, hr, hm⟩ := hrows i hi
  obtain ⟨row', out', hg', hp', hr', hm'⟩ := hrows' (τ i) ((hτ i).mpr hi)
  have hq := ranking_renamed τ (E' := CoRated C' (τ i)) (sc' := fun j => some (similarity C' (τ i) j))
    (fun j => coRated_renamed h i j) (fun j => by rw [similarity_renamed h]) hr
  have hlen := ranking_length hr' hq
  have a : 0 < i → row.Perm out := fun h0 => row_perm_out hp hr.distinct fun p => by
    rw [hm]
    exact or_iff_left fun h => by omega
  have a' : 0 < τ i → row'.Perm out' := fun h0 => row_perm_out hp' hr'.distinct fun p => by
    rw [hm']
    exact or_iff_left fun h => by omega
  refine ⟨row, row', hg, hg', fun h0 h0' => ?_, fun hinj => ?_⟩
  · refine ((a' h0').map _).trans (.trans ?_ ((a h0).map _).symm)
    rw [ranking_scores hr' hq hlen, List.map_map]
    exact .refl _
  · have ho : out' = out.map fun p => (τ p.1, p.2) := by
      refine ranking_unique hr' hq hlen fun j j' h1 h2 h3 => ?_
      have h1' := (coRated_renamed h i (τ.symm j)).mp (by simpa using h1)
      have h2' := (coRated_renamed h i (τ.symm j')).mp (by simpa using h2)
      have s1 := similarity_renamed h i (τ.symm j)
      have s2 := similarity_renamed h i (τ.symm j')
      rw [Equiv.apply_symm_apply] at s1 s2
      exact τ.symm.injective (hinj _ _ h1' h2' (by rw [← s1, ← s2]; exact Option.some.inj h3))
    refine ⟨fun p hp0 => ?_, fun h0 h0' => ?_⟩
    · rw [hm, hm', ho]
      have z : ∀ q : Nat × R, q.2 ≠ 0 → ∀ {A B D : Prop}, ¬ (A ∧ q = (0, 0) ∧ B ∧ D) := by
        rintro q hq A B D ⟨-, rfl, -⟩
        exact hq rfl
      rw [or_iff_left (z (τ p.1, p.2) hp0), or_iff_left (z p hp0), List.mem_map]
      constructor
      · rintro ⟨q, hq, hqp⟩
        simp only [Prod.mk.injEq, EmbeddingLike.apply_eq_iff_eq] at hqp
        exact (Prod.ext hqp.1 hqp.2 : q = p) ▸ hq
      · exact fun hq => ⟨p, hq, rfl⟩
    · refine (a' h0').trans ?_
      rw [ho]
      exact ((a h0).map _).symm

/-- Items 1 and 2 exchange their numbers, and the two users. -/
example :
    let C : SpRows Rat := [[(0, 1), (1, 3)], [(1, 1), (2, 4)]]
    let C' : SpRows Rat := [[(1, 4), (2, 1)], [(2, 3), (0, 1)]]
    (knnFit insertionHeap 3 2 C false).toOption = some [[(0, 1), (1, 3)], [(1, 10), (2, 4)], [(1, 4), (2, 16)]] ∧
      (knnFit insertionHeap 3 2 C' false).toOption = some [[(0, 1), (2, 3)], [(1, 16), (2, 4)], [(1, 4), (2, 10)]] ∧
      RenamedMatrix (Equiv.swap 0 1) (Equiv.swap 1 2) C C' := by
  refine ⟨by decide +kernel, by decide +kernel, fun u => ?_⟩
  rcases u with - | - | u
  · simpa [Equiv.swap_apply_def] using List.Perm.swap _ _ _
  · simpa [Equiv.swap_apply_def] using List.Perm.swap _ _ _
  · have : Equiv.swap 0 1 (u + 2) = u + 2 := Equiv.swap_apply_of_ne_of_ne (by omega) (by omega)
    simp [this]

/-! ## Scores -/

omit [LinearOrder R] [Field R] in
theorem getD_renamed {sim sim' : SpRows R} (h : RenamedMatrix τ τ sim sim') (i : Nat) :
    (sim'.getD (τ i) []).Perm ((sim.getD i []).map fun e => (τ e.1, e.2)) := by
  rw [List.getD_eq_getElem?_getD, List.getD_eq_getElem?_getD]
  have hi := h i
  generalize sim[i]? = a at hi ⊢
  generalize sim'[τ i]? = b at hi ⊢
  cases hi with
  | none => exact .refl _
  | some hp => exact hp

omit [LinearOrder R] [Field R] in
theorem reachable_renamed {sim sim' : SpRows R} (h : RenamedMatrix τ τ sim sim') {row row' : List (Nat × R)}
    (hr : row'.Perm (row.map fun e => (τ e.1, e.2))) (j : Nat) : Reachable sim' row' (τ j) ↔ Reachable sim row j := by
  unfold Reachable
  constructor
  · rintro ⟨e, he, hs⟩
    obtain ⟨e0, he0, rfl⟩ := List.mem_map.mp (hr.mem_iff.mp he)
    exact ⟨e0, he0, (stored_renamed (getD_renamed h e0.1) j).mp hs⟩
  · rintro ⟨e, he, hs⟩
    exact ⟨(τ e.1, e.2), hr.mem_iff.mpr (List.mem_map_of_mem he), (stored_renamed (getD_renamed h e.1) j).mpr hs⟩

omit [LinearOrder R] in
theorem itemScore_renamed {sim sim' : SpRows R} (h : RenamedMatrix τ τ sim sim') {row row' : List (Nat × R)}
    (hr : row'.Perm (row.map fun e => (τ e.1, e.2))) (j : Nat) : itemScore sim' row' (τ j) = itemScore sim row j := by
  unfold itemScore
  rw [(hr.map _).sum_eq, List.map_map]
  congr 1
  refine List.map_congr_left fun e _ => ?_
  simp only [Function.comp_apply, cell]
  rw [sumAt_renamed (getD_renamed h e.1)]

/-- **C67** (item-item model, recommendations).  With the similarities and the rated items renamed, `recommend` gives the same scores,
and where no two items tie the renamed items; also with `filter_already_liked_items`. -/
theorem C67_knn_recommend (H : HeapImpl (R × Nat) pairLt) (lowest : R) {sim sim' : SpRows R} (hsim : SquareRows sim)
    (hsim' : SquareRows sim') (h : RenamedMatrix τ τ sim sim') {row row' : List (Nat × R)}
    (hrow : ∀ e ∈ row, e.1 < sim.length) (hr : row'.Perm (row.map fun e => (τ e.1, e.2))) (N : Nat) (hN : 1 ≤ N) (liked : Bool) :
    ∃ out out', knnRecommendOne H lowest (KnnState.ofSimilarity sim) [row] N liked none none =
        (.ok (intRow out), KnnState.ofSimilarity sim) ∧
      knnRecommendOne H lowest (KnnState.ofSimilarity sim') [row'] N liked none none =
        (.ok (intRow out'), KnnState.ofSimilarity sim') ∧
      out'.map Prod.snd = out.map Prod.snd ∧
      ((∀ i j, Reachable sim row i → Reachable sim row j →
          (if liked ∧ i ∈ row.map Prod.fst then 0 else itemScore sim row i) =
            (if liked ∧ j ∈ row.map Prod.fst then 0 else itemScore sim row j) → i = j) →
        out' = out.map fun p => (τ p.1, p.2)) := by
  have hrow' : ∀ e ∈ row', e.1 < sim'.length := by
    intro e he
    obtain ⟨e0, he0, rfl⟩ := List.mem_map.mp (hr.mem_iff.mp he)
    exact (renamedMatrix_lt_iff h _).mpr (hrow e0 he0)
  have hin : ∀ j, τ j ∈ row'.map Prod.fst ↔ j ∈ row.map Prod.fst := by
    intro j
    rw [(hr.map Prod.fst).mem_iff, List.map_map]
    simp
  have ex : ∀ (sim : SpRows R) (row : List (Nat × R)), SquareRows sim → (∀ e ∈ row, e.1 < sim.length) →
      ∃ out, knnRecommendOne H lowest (KnnState.ofSimilarity sim) [row] N liked none none =
        (.ok (intRow out), KnnState.ofSimilarity sim) ∧
        IsRanking N (Reachable sim row)
          (fun j => some (if liked ∧ j ∈ row.map Prod.fst then 0 else itemScore sim row j)) out := by
    intro sim row hsim hrow
    cases liked with
    | false => simpa using C25_scores H lowest sim hsim row hrow N hN
    | true => simpa only [true_and] using C25_scores_filtered H lowest sim hsim row hrow N hN
  obtain ⟨out, e, hk⟩ := ex sim row hsim hrow
  obtain ⟨out', e', hk'⟩ := ex sim' row' hsim' hrow'
  have hsc : ∀ j, (if liked ∧ τ j ∈ row'.map Prod.fst then 0 else itemScore sim' row' (τ j)) =
      if liked ∧ j ∈ row.map Prod.fst then 0 else itemScore sim row j := by
    intro j
    rw [itemScore_renamed h hr]
    simp only [hin]
  have hq := ranking_renamed τ (E' := Reachable sim' row')
    (sc' := fun j => some (if liked ∧ j ∈ row'.map Prod.fst then 0 else itemScore sim' row' j))
    (fun j => reachable_renamed h hr j) (fun j => by rw [hsc]) hk
  have hlen := ranking_length hk' hq
  refine ⟨out, out', e, e', ?_, fun hinj => ?_⟩
  · rw [ranking_scores hk' hq hlen, List.map_map]
    rfl
  · refine ranking_unique hk' hq hlen fun i j h1 h2 h3 => τ.symm.injective (hinj _ _ ?_ ?_ ?_)
    · rw [← reachable_renamed h hr]; simpa using h1
    · rw [← reachable_renamed h hr]; simpa using h2
    · rw [← hsc, ← hsc, Equiv.apply_symm_apply, Equiv.apply_symm_apply]
      exact Option.some.inj h3

end knn

/-! ## Cosine, TF-IDF and BM25 -/

section weighted

variable {σ τ : Equiv.Perm Nat}

/-- The triples with both numbers renamed, in any order. -/
def Coo.Renamed (σ τ : Equiv.Perm Nat) (X X' : Coo) : Prop :=
  X'.nrows = X.nrows ∧ X'.entries.Perm (X.entries.map fun e => (τ e.1, σ e.2.1, e.2.2))

theorem sum_coe_flatMap {α β : Type} (l : List α) (g : α → List β) :
    ((l.flatMap g : List β) : Multiset β) = (l.map fun a => (g a : Multiset β)).sum := by
  induction l with
  | nil => rfl
  | cons a l ih => rw [List.flatMap_cons, List.map_cons, List.sum_cons, ← ih, Multiset.coe_add]

theorem itemUser_renamed (n : Nat) {C C' : SpRows ℝ} (h : RenamedMatrix σ τ C C') :
    (itemUser n C).Renamed σ τ (itemUser n C') := by
  refine ⟨rfl, ?_⟩
  unfold itemUser
  simp only
  rw [← Multiset.coe_eq_coe, List.map_flatMap, sum_coe_flatMap, sum_coe_flatMap]
  refine List.Perm.sum_eq (Spec.Renamed.perm (σ := σ) fun u => ?_)
  rw [List.getElem?_map, List.getElem?_map, List.getElem?_zipIdx, List.getElem?_zipIdx]
  have hu := h u
  generalize C[u]? = a at hu ⊢
  generalize C'[σ u]? = b at hu ⊢
  cases hu with
  | none => rfl
  | some hp =>
    simp only [Option.map_some, Option.some.injEq, zero_add, Multiset.coe_eq_coe, List.map_map]
    refine (hp.map _).trans ?_
    rw [List.map_map]
    exact .refl _

theorem bincountW_renamed {a b : List (Nat × ℝ)} (h : b.Perm (a.map fun e => (τ e.1, e.2))) (k : Nat) :
    bincountW b (τ k) = bincountW a k := by
  rw [bincountW_perm h]
  unfold bincountW
  rw [List.filter_map, List.map_map]
  congr 2
  refine List.filter_congr fun e _ => ?_
  simp

theorem Coo.Renamed.idf {X X' : Coo} (h : X.Renamed σ τ X') (c : Nat) : Implicit.idf X' (σ c) = Implicit.idf X c := by
  unfold Implicit.idf bincount
  rw [h.1, (h.2.map _).count_eq, List.map_map]
  have : (fun e : Nat × Nat × ℝ => e.2.1) ∘ (fun e : Nat × Nat × ℝ => (τ e.1, σ e.2.1, e.2.2)) =
      σ ∘ fun e : Nat × Nat × ℝ => e.2.1 := rfl
  rw [this, ← List.map_map, List.count_map_of_injective _ _ σ.injective]

theorem Coo.Renamed.rowSum {X X' : Coo} (h : X.Renamed σ τ X') (r : Nat) :
    Implicit.rowSum X' (τ r) = Implicit.rowSum X r := by
  refine bincountW_renamed ?_ r
  refine (h.2.map _).trans ?_
  rw [List.map_map, List.map_map]
  exact .refl _

theorem Coo.Renamed.averageLength {X X' : Coo} (h : X.Renamed σ τ X') (hτ : ∀ i, τ i < X.nrows ↔ i < X.nrows) :
    Implicit.averageLength X' = Implicit.averageLength X := by
  unfold Implicit.averageLength
  rw [h.1]
  congr 1
  refine List.Perm.sum_eq (Spec.Renamed.perm (σ := τ) fun u => ?_)
  rw [List.getElem?_map, List.getElem?_map]
  by_cases hu : u < X.nrows
  · rw [List.getElem?_range hu, List.getElem?_range ((hτ u).mpr hu)]
    simp [h.rowSum]
  · rw [List.getElem?_eq_none (l := List.range X.nrows) (i := u) (by simpa using hu),
      List.getElem?_eq_none (by rw [List.length_range]; exact not_lt.mp fun hh => hu ((hτ u).mp hh))]
    rfl

theorem Coo.Renamed.tfidf {X X' : Coo} (h : X.Renamed σ τ X') : (tfidfWeight X).Renamed σ τ (tfidfWeight X') := by
  refine ⟨h.1, ?_⟩
  unfold tfidfWeight
  simp only
  refine (h.2.map _).trans ?_
  rw [List.map_map, List.map_map]
  simp only [Function.comp_def, h.idf]
  exact .refl _

theorem Coo.Renamed.normalize {X X' : Coo} (h : X.Renamed σ τ X') : (normalizeRows X).Renamed σ τ (normalizeRows X') := by
  refine ⟨h.1, ?_⟩
  unfold normalizeRows
  simp only
  have hb : ∀ r, bincountW (X'.entries.map fun e => (e.1, e.2.2 ^ 2)) (τ r) =
      bincountW (X.entries.map fun e => (e.1, e.2.2 ^ 2)) r := fun r => by
    refine bincountW_renamed ?_ r
    refine (h.2.map _).trans ?_
    rw [List.map_map, List.map_map]
    exact .refl _
  refine (h.2.map _).trans ?_
  rw [List.map_map, List.map_map]
  simp only [Function.comp_def, hb]
  exact .refl _

theorem Coo.Renamed.bm25 {X X' : Coo} (h : X.Renamed σ τ X') (hτ : ∀ i, τ i < X.nrows ↔ i < X.nrows) (K1 B : ℝ) :
    (bm25Weight K1 B X).Renamed σ τ (bm25Weight K1 B X') := by
  refine ⟨h.1, ?_⟩
  unfold bm25Weight lengthNorm
  simp only
  refine (h.2.map _).trans ?_
  rw [List.map_map, List.map_map]
  simp only [Function.comp_def, h.idf, h.rowSum, h.averageLength hτ]
  exact .refl _

theorem coalesce_renamed {es es' : List (Nat × ℝ)} (h : es'.Perm (es.map fun e => (τ e.1, e.2))) :
    (coalesce es').Perm ((coalesce es).map fun e => (τ e.1, e.2)) := by
  have nd : ∀ es : List (Nat × ℝ), ((coalesce es).map Prod.fst).Nodup := fun es =>
    (coalesce_sorted es).imp fun hab => ne_of_lt hab
  refine (List.perm_ext_iff_of_nodup (List.Nodup.of_map _ (nd es')) ?_).mpr ?_
  · refine (List.Nodup.of_map _ (nd es)).map ?_
    rintro ⟨a, b⟩ ⟨c, d⟩ hh
    simpa using hh
  · rintro ⟨c, v⟩
    obtain ⟨c, rfl⟩ := τ.surjective c
    rw [mem_coalesce, stored_renamed h, sumAt_renamed h, ← mem_coalesce, List.mem_map]
    constructor
    · exact fun hh => ⟨_, hh, rfl⟩
    · rintro ⟨e, he, hev⟩
      simp only [Prod.mk.injEq, EmbeddingLike.apply_eq_iff_eq] at hev
      rw [← hev.1, ← hev.2]
      exact he

theorem Coo.Renamed.userRows {X X' : Coo} (h : X.Renamed σ τ X') (m : Nat) (hσ : ∀ u, σ u < m ↔ u < m) :
    RenamedMatrix σ τ (Implicit.userRows m X) (Implicit.userRows m X') := by
  intro u
  unfold Implicit.userRows cooToCsr
  rw [List.getElem?_map, List.getElem?_map]
  by_cases hu : u < m
  · rw [List.getElem?_range hu, List.getElem?_range ((hσ u).mpr hu)]
    refine .some (coalesce_renamed ?_)
    refine (((h.2.map _).filter _).map _).trans ?_
    rw [List.map_map, List.filter_map, List.filter_map, List.map_map, List.map_map, List.map_map]
    have : (fun e : Nat × Nat × ℝ => e.2.1 == u) = fun e : Nat × Nat × ℝ => σ e.2.1 == σ u := by
      funext e
      simp
    simp only [Function.comp_def]
    rw [this]
  · rw [List.getElem?_eq_none (by simpa using hu),
      List.getElem?_eq_none (by rw [List.length_range]; exact not_lt.mp fun hh => hu ((hσ u).mp hh))]
    exact .none

theorem userRows_columns (n m : Nat) (X : Coo) (h : ∀ e ∈ X.entries, e.1 < n) : ∀ r ∈ userRows m X, ∀ e ∈ r, e.1 < n := by
  intro r hr e he
  unfold userRows cooToCsr at hr
  obtain ⟨u, -, rfl⟩ := List.mem_map.mp hr
  obtain ⟨⟨v, hv⟩, -⟩ := (mem_coalesce _ e.1 e.2).mp he
  obtain ⟨c, hc, hce⟩ := List.mem_map.mp hv
  obtain ⟨d, hd, rfl⟩ := List.mem_map.mp (List.mem_filter.mp hc).1
  simp only [Prod.mk.injEq] at hce
  rw [← hce.1]
  exact h d hd

/-- Two similarity matrices for `n` items say the same with the items renamed by `τ`: the neighbours of corresponding items have the
same similarities, except in the row of item 0. -/
def Spec.SameNeighbours (τ : Equiv.Perm Nat) (n : Nat) (sim sim' : SpRows ℝ) : Prop :=
  sim.length = n ∧ sim'.length = n ∧ ∀ i, 0 < i → 0 < τ i → i < n → ∃ row row', sim[i]? = some row ∧ sim'[τ i]? = some row' ∧
    (row'.map Prod.snd).Perm (row.map Prod.snd)

/-- **C67** (Cosine, TF-IDF and BM25).  On ratings with users and items renamed all three train, and the neighbours of a renamed item
have the same similarities. -/
theorem C67_weighted (H : HeapImpl (ℝ × Nat) pairLt) (n K : Nat) (K1 B : ℝ) (hK : 1 ≤ K) (hnK : n * K ≤ 2 ^ 31) {C C' : SpRows ℝ}
    (h : RenamedMatrix σ τ C C') (hτ : ∀ i, τ i < n ↔ i < n) (hC : ∀ r ∈ C, ∀ e ∈ r, e.1 < n) :
    (∃ sim sim', cosineFit H n K C false = .ok sim ∧ cosineFit H n K C' false = .ok sim' ∧ SameNeighbours τ n sim sim') ∧
    (∃ sim sim', tfidfFit H n K C false = .ok sim ∧ tfidfFit H n K C' false = .ok sim' ∧ SameNeighbours τ n sim sim') ∧
    (∃ sim sim', bm25Fit H n K K1 B C false = .ok sim ∧ bm25Fit H n K K1 B C' false = .ok sim' ∧ SameNeighbours τ n sim sim') := by
  have hlen : C'.length = C.length := card_lt_eq (renamedMatrix_lt_iff h)
  have hσ : ∀ u, σ u < C.length ↔ u < C.length := fun u => by
    rw [← renamedMatrix_lt_iff h u, hlen]
  have hX := itemUser_renamed n h
  have hcol : ∀ e ∈ (itemUser n C).entries, e.1 < n := by
    intro e he
    unfold itemUser at he
    obtain ⟨p, hp, hpe⟩ := List.mem_flatMap.mp he
    obtain ⟨d, hd, rfl⟩ := List.mem_map.mp hpe
    obtain ⟨k, hk⟩ := List.mem_iff_getElem?.mp hp
    rw [List.getElem?_zipIdx] at hk
    cases hck : C[k]? with
    | none => rw [hck] at hk; simp at hk
    | some z =>
      rw [hck] at hk
      simp at hk
      subst hk
      exact hC z (List.mem_of_getElem? hck) d hd
  have fin : ∀ X X' : Coo, X.Renamed σ τ X' → (∀ e ∈ X.entries, e.1 < n) →
      ∃ sim sim', knnFit H n K (userRows C.length X) false = .ok sim ∧ knnFit H n K (userRows C.length X') false = .ok sim' ∧
        SameNeighbours τ n sim sim' := by
    intro X X' hXX hc
    obtain ⟨sim, sim', e, e', hl, hl', hrows⟩ := C67_knn H n K hK hnK (hXX.userRows C.length hσ) hτ (userRows_columns n _ X hc)
    refine ⟨sim, sim', e, e', hl, hl', fun i h0 h0' hi => ?_⟩
    obtain ⟨row, row', hg, hg', hs, -⟩ := hrows i hi
    exact ⟨row, row', hg, hg', hs h0 h0'⟩
  have mapcol : ∀ (X : Coo) (g : Nat × Nat × ℝ → ℝ), (∀ e ∈ X.entries, e.1 < n) →
      ∀ e ∈ X.entries.map (fun e => (e.1, e.2.1, g e)), e.1 < n := by
    intro X g hc e he
    obtain ⟨d, hd, rfl⟩ := List.mem_map.mp he
    exact hc d hd
  unfold cosineFit tfidfFit bm25Fit
  rw [hlen]
  exact ⟨fin _ _ hX.normalize (mapcol _ _ hcol), fin _ _ hX.tfidf.normalize (mapcol (tfidfWeight _) _ (mapcol _ _ hcol)),
    fin _ _ (hX.bm25 hτ K1 B) (mapcol _ _ hcol)⟩

/-- Users 0 and 1 and items 1 and 2 exchange their numbers. -/
example (H : HeapImpl (ℝ × Nat) pairLt) :
    ∃ sim sim', tfidfFit H 3 2 [[(0, 1), (1, 3)], [(1, 1), (2, 4)]] false = .ok sim ∧
      tfidfFit H 3 2 [[(2, 1), (1, 4)], [(0, 1), (2, 3)]] false = .ok sim' ∧
      SameNeighbours (Equiv.swap 1 2) 3 sim sim' := by
  refine (C67_weighted H 3 2 1 1 (by norm_num) (by norm_num) (σ := Equiv.swap 0 1) ?_ ?_ ?_).2.1
  · intro u
    rcases u with - | - | u
    · simp [Equiv.swap_apply_def]
    · simp [Equiv.swap_apply_def]
    · have : Equiv.swap 0 1 (u + 2) = u + 2 := Equiv.swap_apply_of_ne_of_ne (by omega) (by omega)
      simp [this]
  · intro i
    rw [Equiv.swap_apply_def]
    split_ifs <;> omega
  · intro r hr e he
    simp only [List.mem_cons, List.not_mem_nil, or_false] at hr
    rcases hr with rfl | rfl <;> simp only [List.mem_cons, List.not_mem_nil, or_false] at he <;> rcases he with rfl | rfl <;> norm_num

end weighted

/-! ## Where the numbers do matter -/

/-- **C67** violated where neighbours tie: the cut-off keeps tied neighbours by their numbers.  One user rated three items equally, so
exchanging the numbers of items 0 and 2 gives the same matrix again; item 1 keeps the neighbours 1 and 2 both times, not 1 and 0. -/
theorem C67_knn_ties_violated :
    let C : SpRows Rat := [[(0, 1), (1, 1), (2, 1)]]
    RenamedMatrix (Equiv.refl _) (Equiv.swap 0 2) C C ∧
      ∃ sim row, (knnFit insertionHeap 3 2 C false).toOption = some sim ∧ sim[1]? = some row ∧
        (2, 1) ∈ row ∧ (Equiv.swap 0 2 2, (1 : Rat)) ∉ row := by
  refine ⟨fun u => ?_, [[(1, 1), (2, 1)], [(1, 1), (2, 1)], [(1, 1), (2, 1)]], [(1, 1), (2, 1)], by decide +kernel, rfl,
    by decide +kernel, by decide +kernel⟩
  rcases u with - | u
  · have h1 : Equiv.swap 0 2 1 = 1 := by decide
    simp only [List.getElem?_cons_zero, Equiv.refl_apply, Option.rel_some_some, List.map_cons, List.map_nil,
      Equiv.swap_apply_left, Equiv.swap_apply_right, h1]
    decide +kernel
  · simp

/-- **C67** violated in the row of item 0: where item 0 has no ratings but another item has, the model stores a neighbour 0 with similarity 0 for it.  After
items 0 and 1 exchange their numbers, the item without ratings has number 1 and no neighbours. -/
theorem C67_knn_first_violated :
    let C : SpRows Rat := [[(1, 2), (2, 1)]]
    let C' : SpRows Rat := [[(0, 2), (2, 1)]]
    RenamedMatrix (Equiv.refl _) (Equiv.swap 0 1) C C' ∧
      (knnFit insertionHeap 3 2 C false).toOption = some [[(0, 0)], [(1, 4), (2, 2)], [(1, 2), (2, 1)]] ∧
      (knnFit insertionHeap 3 2 C' false).toOption = some [[(0, 4), (2, 2)], [], [(0, 2), (2, 1)]] := by
  refine ⟨fun u => ?_, by decide +kernel, by decide +kernel⟩
  rcases u with - | u
  · have h2 : Equiv.swap 0 1 2 = 2 := by decide
    simp [h2]
  · simp

/-- Item 0 rated 2, item 1 rated 1: neighbours and scores, before and after items 0 and 1 exchange their numbers. -/
example :
    let sim : SpRows Rat := [[(0, 4), (2, 2)], [(1, 3), (2, 5)], [(0, 2), (1, 5)]]
    let sim' : SpRows Rat := [[(0, 3), (2, 5)], [(1, 4), (2, 2)], [(0, 5), (1, 2)]]
    (knnRecommendOne insertionHeap (-1000) (KnnState.ofSimilarity sim) [[(0, 2), (1, 1)]] 2 false none none).1.toOption =
        some [(2, 9), (0, 8)] ∧
      (knnRecommendOne insertionHeap (-1000) (KnnState.ofSimilarity sim') [[(0, 1), (1, 2)]] 2 false none none).1.toOption =
        some [(2, 9), (1, 8)] := by
  decide +kernel

end Implicit
