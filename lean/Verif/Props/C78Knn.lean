import Verif.Props.C78
import Verif.Props.C29
/-!
# C78 — item-item models: users and items without interactions
-/

set_option linter.unusedSectionVars false

namespace Implicit

variable {R : Type} [LinearOrder R] [Field R]

/-! ## Users -/

theorem productAdds_append (W Z : SpRows R) : ∀ {row : List (Nat × R)}, (∀ e ∈ row, e.1 < W.length) →
    productAdds (W ++ Z) row = productAdds W row
  | [], _ => rfl
  | e :: row, h => by
    unfold productAdds
    rw [List.getElem?_append_left (h e (by simp)), productAdds_append W Z fun e he => h e (by simp [he])]

theorem knnLoop_append (H : HeapImpl (R × Nat) pairLt) (n K : Nat) (W Z : SpRows R) : ∀ (rows : SpRows R) (i : Nat) (a : Accum R),
    (∀ row ∈ rows, ∀ e ∈ row, e.1 < W.length) → knnLoop H n K (W ++ Z) i rows a = knnLoop H n K W i rows a
  | [], _, _, _ => rfl
  | row :: rows, i, a, h => by
    unfold knnLoop knnRow
    rw [productAdds_append W Z (h row (by simp))]
    simp only [knnLoop_append H n K W Z rows _ _ fun r hr => h r (by simp [hr])]

theorem knnFit_cold_users (H : HeapImpl (R × Nat) pairLt) (n K : Nat) (W : SpRows R) (users : Nat) (callback : Bool) :
    knnFit H n K (W ++ List.replicate users []) callback = knnFit H n K W callback := by
  unfold knnFit allPairsKnn
  rw [transpose_cold_users, knnLoop_append _ _ _ _ _ _ _ _ (transpose_bound n W)]

theorem itemUser_cold (n : Nat) (counts : SpRows ℝ) (users : Nat) : itemUser n (counts ++ List.replicate users []) = itemUser n counts := by
  unfold itemUser
  rw [List.zipIdx_append, List.flatMap_append]
  have : (List.flatMap (fun p : List (Nat × ℝ) × Nat => p.1.map fun e => (e.1, p.2, e.2))
      ((List.replicate users []).zipIdx (0 + counts.length))) = [] := by
    rw [List.flatMap_eq_nil_iff]
    intro x hx
    obtain ⟨_, h2, h3⟩ := List.mem_zipIdx hx
    rw [h3]
    simp
  rw [this, List.append_nil]

theorem userRows_cold (m users : Nat) (X : Coo) (h : ∀ e ∈ X.entries, e.2.1 < m) :
    userRows (m + users) X = userRows m X ++ List.replicate users [] := by
  unfold userRows cooToCsr
  rw [List.range_add, List.map_append]
  congr 1
  rw [List.map_map, List.eq_replicate_iff]
  refine ⟨by simp, ?_⟩
  intro b hb
  obtain ⟨j, _, rfl⟩ := List.mem_map.mp hb
  rw [Function.comp_apply]
  have : (X.entries.map fun e => ((e.2.1, e.1, e.2.2) : KnnCell ℝ)).filter (fun c => c.1 == m + j) = [] := by
    rw [List.filter_eq_nil_iff]
    intro c hc
    obtain ⟨e, he, rfl⟩ := List.mem_map.mp hc
    have := h e he
    simp only [beq_iff_eq]
    omega
  rw [this]
  rfl

theorem itemUser_users (n : Nat) (counts : SpRows ℝ) : ∀ e ∈ (itemUser n counts).entries, e.2.1 < counts.length := by
  intro e he
  obtain ⟨p, hp, hep⟩ := List.mem_flatMap.mp he
  obtain ⟨d, _, rfl⟩ := List.mem_map.mp hep
  have := (List.mem_zipIdx hp).2.1
  show p.2 < _
  omega

/-- **C78** (item-item models, users).  Users without ratings change nothing in the similarities of `CosineRecommender`,
`TFIDFRecommender` and `BM25Recommender`, nor whether `fit` fails. -/
theorem C78_knn_users (H : HeapImpl (ℝ × Nat) pairLt) (n K : Nat) (K1 B : ℝ) (counts : SpRows ℝ) (users : Nat) (callback : Bool) :
    cosineFit H n K (counts ++ List.replicate users []) callback = cosineFit H n K counts callback ∧
    tfidfFit H n K (counts ++ List.replicate users []) callback = tfidfFit H n K counts callback ∧
    bm25Fit H n K K1 B (counts ++ List.replicate users []) callback = bm25Fit H n K K1 B counts callback := by
  have key : ∀ X : Coo, (X.entries.map fun e => (e.1, e.2.1)) = ((itemUser n counts).entries.map fun e => (e.1, e.2.1)) →
      ∀ e ∈ X.entries, e.2.1 < counts.length := by
    intro X hX e he
    have : (e.1, e.2.1) ∈ (itemUser n counts).entries.map fun e => (e.1, e.2.1) := by
      rw [← hX]
      exact List.mem_map_of_mem he
    obtain ⟨d, hd, hde⟩ := List.mem_map.mp this
    rw [← (Prod.mk.inj hde).2]
    exact itemUser_users n counts d hd
  have hl : (counts ++ List.replicate users []).length = counts.length + users := by simp
  have c (X : Coo) := C29_cells X K1 B
  refine ⟨?_, ?_, ?_⟩
  · unfold cosineFit
    rw [hl, itemUser_cold, userRows_cold _ _ _ (key _ (Prod.mk.inj (c _).1).2), knnFit_cold_users]
  · unfold tfidfFit
    rw [hl, itemUser_cold, userRows_cold _ _ _ (key _ ((Prod.mk.inj (c _).1).2.trans (Prod.mk.inj (c _).2.1).2)), knnFit_cold_users]
  · unfold bm25Fit
    rw [hl, itemUser_cold, userRows_cold _ _ _ (key _ (Prod.mk.inj (c _).2.2).2), knnFit_cold_users]

/-! ## Items -/

/-- The accumulator with `k` more cells, none touched. -/
def Accum.extend (k : Nat) (a : Accum R) : Accum R :=
  ⟨a.sums ++ List.replicate k 0, a.next ++ List.replicate k (-1), a.head, a.length⟩

theorem Accum.add_extend (k : Nat) {a b : Accum R} {i : Nat} {v : R} (h : a.add i v = .ok b) :
    (a.extend k).add i v = .ok (b.extend k) := by
  unfold Accum.add at h
  cases h1 : a.sums[i]? with
  | none => rw [h1] at h; cases h
  | some s =>
    cases h2 : a.next[i]? with
    | none => rw [h1, h2] at h; cases h
    | some nx =>
      rw [h1, h2] at h
      have l1 := (List.getElem?_eq_some_iff.mp h1).1
      have l2 := (List.getElem?_eq_some_iff.mp h2).1
      unfold Accum.add Accum.extend
      simp only [List.getElem?_append_left l1, List.getElem?_append_left l2, h1, h2]
      simp only at h
      split at h <;> rename_i hc
      · cases h
        rw [if_pos hc, List.set_append_left _ _ l1, List.set_append_left _ _ l2]
      · cases h
        rw [if_neg hc, List.set_append_left _ _ l1]

theorem Accum.addAll_extend (k : Nat) : ∀ (es : List (Nat × R)) {a b : Accum R}, a.addAll es = .ok b →
    (a.extend k).addAll es = .ok (b.extend k)
  | [], a, b, h => by
    cases h
    rfl
  | e :: es, a, b, h => by
    unfold Accum.addAll at h ⊢
    cases h1 : a.add e.1 e.2 with
    | error x => rw [h1] at h; cases h
    | ok c =>
      rw [h1] at h
      rw [Accum.add_extend k h1]
      exact Accum.addAll_extend k es h

theorem Accum.drain_extend (k : Nat) : ∀ (m : Nat) {a b : Accum R} {out : List (Nat × R)}, a.drain m = .ok (out, b) →
    (a.extend k).drain m = .ok (out, b.extend k)
  | 0, a, b, out, h => by
    cases h
    rfl
  | m + 1, a, b, out, h => by
    unfold Accum.drain at h ⊢
    show (match a.head with | .negSucc _ => _ | .ofNat i => _) = _
    cases hh : a.head with
    | negSucc _ => rw [hh] at h; cases h
    | ofNat i =>
      rw [hh] at h
      simp only at h ⊢
      cases h1 : a.sums[i]? with
      | none => rw [h1] at h; cases h
      | some s =>
        cases h2 : a.next[i]? with
        | none => rw [h1, h2] at h; cases h
        | some nx =>
          rw [h1, h2] at h
          have l1 := (List.getElem?_eq_some_iff.mp h1).1
          have l2 := (List.getElem?_eq_some_iff.mp h2).1
          have e1 : (a.extend k).sums[i]? = some s := by
            unfold Accum.extend
            rw [List.getElem?_append_left l1, h1]
          have e2 : (a.extend k).next[i]? = some nx := by
            unfold Accum.extend
            rw [List.getElem?_append_left l2, h2]
          rw [e1, e2]
          simp only at h ⊢
          cases h3 : Accum.drain m (⟨a.sums.set i 0, a.next.set i (-1), nx, a.length⟩ : Accum R) with
          | error x => rw [h3] at h; cases h
          | ok r =>
            have ih := Accum.drain_extend k m (out := r.1) (b := r.2) h3
            rw [h3] at h
            cases h
            have e3 : (⟨(a.extend k).sums.set i 0, (a.extend k).next.set i (-1), nx, (a.extend k).length⟩ : Accum R) =
                Accum.extend k ⟨a.sums.set i 0, a.next.set i (-1), nx, a.length⟩ := by
              unfold Accum.extend
              rw [List.set_append_left _ _ l1, List.set_append_left _ _ l2]
            rw [e3, ih]
            rfl

theorem knnRow_extend (H : HeapImpl (R × Nat) pairLt) (K k : Nat) (M : SpRows R) (row : List (Nat × R)) {a b : Accum R}
    {h : List (R × Nat)} (hr : knnRow H K M row a = .ok (h, b)) : knnRow H K M row (a.extend k) = .ok (h, b.extend k) := by
  unfold knnRow at hr ⊢
  cases h1 : productAdds M row with
  | error e => rw [h1] at hr; cases hr
  | ok adds =>
    rw [h1] at hr
    simp only [bind, Except.bind] at hr ⊢
    cases h2 : a.addAll adds with
    | error e => rw [h2] at hr; cases hr
    | ok c =>
      rw [h2] at hr
      rw [Accum.addAll_extend k adds h2]
      simp only at hr ⊢
      cases h3 : c.foreach with
      | error e => rw [h3] at hr; cases hr
      | ok r =>
        rw [h3] at hr
        have : (c.extend k).foreach = .ok (r.1, r.2.extend k) := Accum.drain_extend k c.length (out := r.1) (b := r.2) h3
        rw [this]
        simp only at hr ⊢
        cases h4 : offerAll H K [] (r.1.map Prod.swap) with
        | error e => rw [h4] at hr; cases hr
        | ok g =>
          rw [h4] at hr
          cases hr
          rfl

theorem Accum.new_extend (n k : Nat) : (Accum.new n : Accum R).extend k = Accum.new (n + k) := by
  unfold Accum.extend Accum.new
  simp only [List.replicate_append_replicate]

theorem sorted_rows_eq {l l' : List (Nat × R)} (h : (l.map Prod.fst).Pairwise (· < ·)) (h' : (l'.map Prod.fst).Pairwise (· < ·))
    (hm : ∀ p, p ∈ l ↔ p ∈ l') : l = l' := by
  rw [List.pairwise_map] at h h'
  have hnd : ∀ {l : List (Nat × R)}, l.Pairwise (fun a b => a.1 < b.1) → l.Nodup := fun h =>
    h.imp fun {a b} hab hE => by rw [hE] at hab; exact lt_irrefl _ hab
  exact List.Perm.eq_of_pairwise (fun a b _ _ hab hba => absurd hab (lt_asymm hba)) h h'
    ((List.perm_ext_iff_of_nodup (hnd h) (hnd h')).mpr hm)

/-- **C78** (item-item models, items).  For given weights, adding `items` items nobody rated leaves the row of every item but the first
as it is; in the first row at most the stored zero of C23 changes.  The new rows are empty. -/
theorem C78_knn_items (H : HeapImpl (R × Nat) pairLt) (n K items : Nat) (hK : 1 ≤ K) (hnK : (n + items) * K ≤ 2 ^ 31) (M : SpRows R)
    (hM : ∀ r ∈ M, ∀ e ∈ r, e.1 < n) :
    ∃ sim sim', knnFit H n K M false = .ok sim ∧ knnFit H (n + items) K M false = .ok sim' ∧
      (∀ i, 0 < i → i < n → sim'[i]? = sim[i]?) ∧
      (∀ i, 0 < i → n ≤ i → i < n + items → sim'[i]? = some []) ∧
      ∀ row row', sim[0]? = some row → sim'[0]? = some row' → ∀ p, p ≠ (0, 0) → (p ∈ row' ↔ p ∈ row) := by
  have hnK0 : n * K ≤ 2 ^ 31 := le_trans (Nat.mul_le_mul_right K (Nat.le_add_right n items)) hnK
  have hM' : ∀ r ∈ M, ∀ e ∈ r, e.1 < n + items := fun r hr e he => lt_of_lt_of_le (hM r hr e he) (Nat.le_add_right _ _)
  set g : Nat → List (R × Nat) := fun i => knnHeap H n K M (colOf n M i) with hg
  set g' : Nat → List (R × Nat) := fun i => knnHeap H (n + items) K M (colOf (n + items) M i) with hg'
  have hcol : ∀ i, i < n → colOf (n + items) M i = colOf n M i := by
    intro i hi
    unfold colOf
    rw [transpose_cold_items n items M hM, List.getD_eq_getElem?_getD, List.getD_eq_getElem?_getD,
      List.getElem?_append_left (by rw [transpose_length]; exact hi)]
  have hgg : ∀ i, i < n → g' i = g i := by
    intro i hi
    obtain ⟨h, e1, -⟩ := knnRow_ok H hK M hM _ (colOf_bound M hi)
    have e2 := knnRow_extend H K items M _ e1
    rw [Accum.new_extend] at e2
    simp only [hg, hg', hcol i hi]
    unfold knnHeap
    rw [e1, e2]
  have hgn : ∀ i, n ≤ i → i < n + items → g' i = [] := by
    intro i hi hi'
    have hc : colOf (n + items) M i = [] := by
      unfold colOf
      rw [transpose_cold_items n items M hM, List.getD_eq_getElem?_getD,
        List.getElem?_append_right (by rw [transpose_length]; exact hi), List.getElem?_replicate]
      split <;> rfl
    simp only [hg', hc]
    rfl
  have hnd : ∀ i, i < n → ((g i).map Prod.snd).Nodup := by
    intro i hi
    obtain ⟨h, e1, -, hrank, hp⟩ := knnRow_ok H hK M hM _ (colOf_bound M hi)
    have hh : g i = h := by simp only [hg]; unfold knnHeap; rw [e1]
    rw [hh]
    have := hrank.distinct
    rw [List.map_map] at this
    exact (hp.map _).nodup_iff.mp this
  have get : ∀ m i (G : Nat → List (R × Nat)), i < m →
      (cooToCsr m ((List.range m).flatMap fun i => slotBlock K i (G i)))[i]? =
        some (coalesce (cooRow i ((List.range m).flatMap fun i => slotBlock K i (G i)))) := by
    intro m i G hi
    unfold cooToCsr
    rw [List.getElem?_map, List.getElem?_range hi]
    rfl
  refine ⟨_, _, by unfold knnFit; rw [allPairsKnn_eq H hK hnK0 M hM]; rfl,
    by unfold knnFit; rw [allPairsKnn_eq H hK hnK M hM']; rfl, ?_, ?_, ?_⟩
  · intro i h0 hi
    rw [get _ i g hi, get _ i g' (by omega)]
    congr 1
    refine sorted_rows_eq (coalesce_sorted _) (coalesce_sorted _) ?_
    rintro ⟨c, v⟩
    rw [mem_knn_row (by omega) g' (by rw [hgg i hi]; exact hnd i hi), mem_knn_row hi g (hnd i hi), hgg i hi]
    simp only [show i ≠ 0 by omega, false_and]
  · intro i h0 hi hi'
    rw [get _ i g' hi']
    congr 1
    refine List.eq_nil_iff_forall_not_mem.mpr ?_
    rintro ⟨c, v⟩ hcv
    rw [mem_knn_row hi' g' (by rw [hgn i hi hi']; simp), hgn i hi hi'] at hcv
    rcases hcv with hcv | ⟨h, -⟩
    · exact absurd hcv List.not_mem_nil
    · omega
  · intro row row' hr hr' p hp
    have hn : 0 < n := by
      by_contra h
      have : n = 0 := by omega
      subst this
      cases hr
    rw [get _ 0 g hn] at hr
    rw [get _ 0 g' (by omega)] at hr'
    cases hr
    cases hr'
    obtain ⟨c, v⟩ := p
    rw [mem_knn_row (by omega) g' (by rw [hgg 0 hn]; exact hnd 0 hn), mem_knn_row hn g (hnd 0 hn), hgg 0 hn]
    constructor
    · rintro (h | ⟨-, rfl, rfl, -⟩)
      · exact .inl h
      · exact absurd rfl hp
    · rintro (h | ⟨-, rfl, rfl, -⟩)
      · exact .inl h
      · exact absurd rfl hp

/-- Items 3 and 4 are never rated. -/
example :
    let M : SpRows Rat := [[(0, 1), (1, 2)], [(1, 1), (2, 1)], [(0, 1), (2, 3)]]
    (knnFit insertionHeap 3 2 M false).toOption = some [[(1, 2), (2, 3)], [(0, 2), (1, 5)], [(0, 3), (2, 10)]] ∧
    (knnFit insertionHeap 5 2 M false).toOption = some [[(0, 0), (1, 2), (2, 3)], [(0, 2), (1, 5)], [(0, 3), (2, 10)], [], []] := by
  decide +kernel

/-- **C78** (`CosineRecommender`, items): the weights of the cosine model do not depend on the number of items. -/
theorem C78_cosine_items (H : HeapImpl (ℝ × Nat) pairLt) (n K items : Nat) (hK : 1 ≤ K) (hnK : (n + items) * K ≤ 2 ^ 31)
    (counts : SpRows ℝ) (hM : ∀ r ∈ counts, ∀ e ∈ r, e.1 < n) :
    ∃ sim sim', cosineFit H n K counts false = .ok sim ∧ cosineFit H (n + items) K counts false = .ok sim' ∧
      (∀ i, 0 < i → i < n → sim'[i]? = sim[i]?) ∧
      (∀ i, 0 < i → n ≤ i → i < n + items → sim'[i]? = some []) ∧
      ∀ row row', sim[0]? = some row → sim'[0]? = some row' → ∀ p, p ≠ (0, 0) → (p ∈ row' ↔ p ∈ row) := by
  have hW : userRows counts.length (normalizeRows (itemUser (n + items) counts)) =
      userRows counts.length (normalizeRows (itemUser n counts)) := rfl
  unfold cosineFit
  rw [hW]
  refine C78_knn_items H n K items hK hnK _ ?_
  intro r hr e he
  unfold userRows cooToCsr at hr
  obtain ⟨u, -, rfl⟩ := List.mem_map.mp hr
  obtain ⟨⟨v, hv⟩, -⟩ := (mem_coalesce _ e.1 e.2).mp he
  obtain ⟨c, hc, hce⟩ := List.mem_map.mp hv
  obtain ⟨d, hd, rfl⟩ := List.mem_map.mp (List.mem_filter.mp hc).1
  have : d.1 = e.1 := (Prod.mk.inj hce).1
  rw [← this]
  obtain ⟨x, hx, rfl⟩ := List.mem_map.mp hd
  show x.1 < n
  obtain ⟨q, hq, hxq⟩ := List.mem_flatMap.mp hx
  obtain ⟨y, hy, rfl⟩ := List.mem_map.mp hxq
  exact hM q.1 (List.mem_of_getElem? (List.mem_zipIdx_iff_getElem?.mp hq)) y hy

/-! ## TF-IDF and BM25 count the items -/

theorem c78_rank_entry {K : Nat} {P : Nat → Prop} {s : Nat → Option ℝ} {out : List (Nat × ℝ)} (h : Spec.IsRanking K P s out)
    (j : Nat) (hj : P j) (hfew : ∀ l : List Nat, l.Nodup → (∀ i ∈ l, P i) → l.length < K) (v : ℝ) (hv : s j = some v) : (j, v) ∈ out := by
  have hlen : out.length < K := by
    have := hfew (out.map Prod.fst) h.distinct (by
      intro i hi
      obtain ⟨p, hp, rfl⟩ := List.mem_map.mp hi
      exact (h.mem p hp).1)
    rwa [List.length_map] at this
  obtain ⟨p, hp, rfl⟩ := List.mem_map.mp (h.complete hlen j hj)
  have := (h.mem p hp).2
  rw [hv] at this
  cases this
  exact hp

theorem c78_few {counts : SpRows ℝ} {n K i : Nat} (hM : ∀ r ∈ counts, ∀ e ∈ r, e.1 < n) (hK : n < K) (l : List Nat) (hnd : l.Nodup)
    (hl : ∀ j ∈ l, Spec.CoRated counts i j) : l.length < K := by
  have hsub : l ⊆ List.range n := by
    intro j hj
    obtain ⟨row, hrow, -, ⟨v, hv⟩⟩ := hl j hj
    exact List.mem_range.mpr (hM row hrow _ hv)
  have := (hnd.subperm hsub).length_le
  rw [List.length_range] at this
  omega

theorem c78_cosine_value {a b : ℝ} (ha : 0 < a) :
    Spec.cosine (Spec.column [[(0, a), (1, a)], [(0, b)]] 1) (Spec.column [[(0, a), (1, a)], [(0, b)]] 0) = a / Real.sqrt (a ^ 2 + b ^ 2) := by
  have h1 : Spec.column [[(0, a), (1, a)], [(0, b)]] 1 = ![a, 0] := by
    funext u
    fin_cases u <;> simp [Spec.column, Spec.cell, Spec.sumAt]
  have h0 : Spec.column [[(0, a), (1, a)], [(0, b)]] 0 = ![a, b] := by
    funext u
    fin_cases u <;> simp [Spec.column, Spec.cell, Spec.sumAt]
  rw [h1, h0]
  have n1 : (![a, 0] : Fin 2 → ℝ) ≠ 0 := fun h => ha.ne' (by simpa using congrFun h 0)
  have n0 : (![a, b] : Fin 2 → ℝ) ≠ 0 := fun h => ha.ne' (by simpa using congrFun h 0)
  unfold Spec.cosine
  rw [if_neg (by rintro (h | h); exacts [n1 h, n0 h])]
  have l1 : Spec.length (![a, 0] : Fin 2 → ℝ) = a := by
    unfold Spec.length
    simp only [Fin.sum_univ_two, Matrix.cons_val_zero, Matrix.cons_val_one]
    rw [show a ^ 2 + (0 : ℝ) ^ 2 = a ^ 2 by ring, Real.sqrt_sq ha.le]
  have l0 : Spec.length (![a, b] : Fin 2 → ℝ) = Real.sqrt (a ^ 2 + b ^ 2) := by
    unfold Spec.length
    simp only [Fin.sum_univ_two, Matrix.cons_val_zero, Matrix.cons_val_one]
  have hs : 0 < Real.sqrt (a ^ 2 + b ^ 2) := Real.sqrt_pos.mpr (by positivity)
  have hd : (∑ i : Fin 2, (![a, 0] : Fin 2 → ℝ) i * (![a, b] : Fin 2 → ℝ) i) = a * a := by
    simp [Fin.sum_univ_two]
  refine Eq.trans (congrArg₂ (· / ·) hd (congrArg₂ (· * ·) l1 l0)) ?_
  show a * a / (a * Real.sqrt (a ^ 2 + b ^ 2)) = a / Real.sqrt (a ^ 2 + b ^ 2)
  field_simp

/-- The ratings of the witnesses: user 0 rated items 0 and 1, user 1 rated item 0. -/
noncomputable def c78Counts : SpRows ℝ := [[(0, 1), (1, 1)], [(0, 1)]]

theorem c78_bound (n : Nat) (hn : 2 ≤ n) : ∀ r ∈ c78Counts, ∀ e ∈ r, e.1 < n := by
  intro r hr e he
  simp only [c78Counts, List.mem_cons, List.not_mem_nil, or_false] at hr
  rcases hr with rfl | rfl <;> simp only [List.mem_cons, List.not_mem_nil, or_false] at he
  · rcases he with rfl | rfl <;> simp only <;> omega
  · subst he; simp only; omega

theorem c78_coRated : Spec.CoRated c78Counts 1 0 := ⟨_, List.mem_cons_self, ⟨1, by simp⟩, ⟨1, by simp⟩⟩

/-- **C78** (`TFIDFRecommender`, items, violated).  The weights contain the logarithm of the number of items: after adding a fifth item
that nobody rated, the similarity of items 1 and 0 is a different number. -/
theorem C78_tfidf_items_violated (H : HeapImpl (ℝ × Nat) pairLt) :
    ∃ sim sim' row row' v v', tfidfFit H 4 6 c78Counts false = .ok sim ∧ tfidfFit H 5 6 c78Counts false = .ok sim' ∧
      sim[1]? = some row ∧ sim'[1]? = some row' ∧ (0, v) ∈ row ∧ (0, v') ∈ row' ∧ v < v' := by
  have hnd : ∀ row ∈ c78Counts, (row.map Prod.fst).Nodup := by
    intro r hr
    simp only [c78Counts, List.mem_cons, List.not_mem_nil, or_false] at hr
    rcases hr with rfl | rfl <;> simp
  have hpos : ∀ r ∈ c78Counts, ∀ e ∈ r, 0 < e.2 := by
    intro r hr e he
    simp only [c78Counts, List.mem_cons, List.not_mem_nil, or_false] at hr
    rcases hr with rfl | rfl <;> simp only [List.mem_cons, List.not_mem_nil, or_false] at he
    · rcases he with rfl | rfl <;> norm_num
    · subst he; norm_num
  have hlen : ∀ n, 4 ≤ n → ∀ r ∈ c78Counts, r.length + 1 < n := by
    intro n hn r hr
    simp only [c78Counts, List.mem_cons, List.not_mem_nil, or_false] at hr
    rcases hr with rfl | rfl <;> simp <;> omega
  have key : ∀ n : Nat, 4 ≤ n → n ≤ 5 → ∃ sim row, tfidfFit H n 6 c78Counts false = .ok sim ∧ sim[1]? = some row ∧
      (0, (Real.log n - Real.log 3) / Real.sqrt ((Real.log n - Real.log 3) ^ 2 + (Real.log n - Real.log 2) ^ 2)) ∈ row := by
    intro n hn hn'
    obtain ⟨sim, e, -, h⟩ := C29_tfidf_partial H n 6 (by norm_num) (by omega) c78Counts hnd (c78_bound n (by omega)) hpos (hlen n hn)
    obtain ⟨row, out, hr, hm, hrank⟩ := h 1 (by omega) (by omega)
    refine ⟨sim, row, e, hr, (hm _).mpr (c78_rank_entry hrank 0 c78_coRated (c78_few (c78_bound n (by omega)) (by omega)) _ ?_)⟩
    have ht : tfidfRows n c78Counts = [[(0, Real.log n - Real.log 3), (1, Real.log n - Real.log 3)], [(0, Real.log n - Real.log 2)]] := by
      unfold tfidfRows c78Counts
      norm_num
    have hn3 : (3 : ℝ) < n := by exact_mod_cast (by omega : 3 < n)
    have ha : 0 < Real.log n - Real.log 3 := sub_pos.mpr (Real.log_lt_log (by norm_num) hn3)
    rw [ht, c78_cosine_value ha]
  obtain ⟨sim, row, e, hr, hv⟩ := key 4 (by omega) (by omega)
  obtain ⟨sim', row', e', hr', hv'⟩ := key 5 (by omega) (by omega)
  refine ⟨sim, sim', row, row', _, _, e, e', hr, hr', hv, hv', ?_⟩
  push_cast
  have h23 : Real.log 2 < Real.log 3 := Real.log_lt_log (by norm_num) (by norm_num)
  have h34 : Real.log 3 < Real.log 4 := Real.log_lt_log (by norm_num) (by norm_num)
  have h45 : Real.log 4 < Real.log 5 := Real.log_lt_log (by norm_num) (by norm_num)
  set a := Real.log 4 - Real.log 3 with ha
  set b := Real.log 4 - Real.log 2 with hb
  set a' := Real.log 5 - Real.log 3 with ha'
  set b' := Real.log 5 - Real.log 2 with hb'
  have pa : 0 < a := by linarith
  have pa' : 0 < a' := by linarith
  have pb : 0 < b := by linarith
  have pb' : 0 < b' := by linarith
  have hcross : a * b' < a' * b := by nlinarith
  rw [div_lt_div_iff₀ (Real.sqrt_pos.mpr (by positivity)) (Real.sqrt_pos.mpr (by positivity))]
  refine lt_of_pow_lt_pow_left₀ 2 (by positivity) ?_
  rw [mul_pow, mul_pow, Real.sq_sqrt (by positivity), Real.sq_sqrt (by positivity)]
  have := mul_self_lt_mul_self (by positivity) hcross
  nlinarith

/-- **C78** (`BM25Recommender`, items, violated): the weights contain the logarithm of the number of items and the mean number of
ratings of an item.  The default parameters. -/
theorem C78_bm25_items_violated (H : HeapImpl (ℝ × Nat) pairLt) :
    ∃ sim sim' row row' v v', bm25Fit H 4 6 (6 / 5) (3 / 4) c78Counts false = .ok sim ∧
      bm25Fit H 5 6 (6 / 5) (3 / 4) c78Counts false = .ok sim' ∧
      sim[1]? = some row ∧ sim'[1]? = some row' ∧ (0, v) ∈ row ∧ (0, v') ∈ row' ∧ v < v' := by
  have key : ∀ n : Nat, 4 ≤ n → n ≤ 5 → ∃ sim row, bm25Fit H n 6 (6 / 5) (3 / 4) c78Counts false = .ok sim ∧ sim[1]? = some row ∧
      (0, (11 / 5) / ((6 / 5) * (1 / 4 + n / 4) + 1) * ((11 / 5) / ((6 / 5) * (1 / 4 + n / 2) + 1)) *
        (Real.log n - Real.log 3) ^ 2) ∈ row := by
    intro n hn hn'
    obtain ⟨sim, e, -, h⟩ := C29_bm25_partial H n 6 (by norm_num) (by omega) (6 / 5) (3 / 4) c78Counts (c78_bound n (by omega))
    obtain ⟨row, out, hr, hm, hrank⟩ := h 1 (by omega) (by omega)
    refine ⟨sim, row, e, hr, (hm _).mpr (c78_rank_entry hrank 0 c78_coRated (c78_few (c78_bound n (by omega)) (by omega)) _ ?_)⟩
    have he : (itemUser n c78Counts).entries = [(0, 0, 1), (1, 0, 1), (0, 1, 1)] := by simp [itemUser, c78Counts]
    have hs0 : rowSum (itemUser n c78Counts) 0 = 2 := by
      unfold rowSum bincountW
      rw [he]
      norm_num
    have hs1 : rowSum (itemUser n c78Counts) 1 = 1 := by
      unfold rowSum bincountW
      rw [he]
      norm_num
    have havg : averageLength (itemUser n c78Counts) = 3 / n := by
      have h : n = 4 ∨ n = 5 := by omega
      have hz : ∀ k, 2 ≤ k → rowSum (itemUser n c78Counts) k = 0 := by
        intro k hk
        unfold rowSum bincountW
        rw [he]
        obtain ⟨k, rfl⟩ : ∃ m, k = m + 2 := ⟨k - 2, by omega⟩
        simp
      unfold averageLength
      have hn : (itemUser n c78Counts).nrows = n := rfl
      rw [hn]
      congr 1
      rcases h with rfl | rfl
      · rw [show List.range 4 = [0, 1, 2, 3] from rfl]
        simp only [List.map_cons, List.map_nil, List.sum_cons, List.sum_nil, hs0, hs1, hz 2 (by omega), hz 3 (by omega)]
        norm_num
      · rw [show List.range 5 = [0, 1, 2, 3, 4] from rfl]
        simp only [List.map_cons, List.map_nil, List.sum_cons, List.sum_nil, hs0, hs1, hz 2 (by omega), hz 3 (by omega), hz 4 (by omega)]
        norm_num
    have hn0 : (n : ℝ) ≠ 0 := by exact_mod_cast (by omega : n ≠ 0)
    have hl0 : lengthNorm (3 / 4) (itemUser n c78Counts) 0 = 1 / 4 + n / 2 := by
      unfold lengthNorm
      rw [hs0, havg]
      field_simp
      ring
    have hl1 : lengthNorm (3 / 4) (itemUser n c78Counts) 1 = 1 / 4 + n / 4 := by
      unfold lengthNorm
      rw [hs1, havg]
      field_simp
      ring
    have hsim : ∀ x y z : ℝ, Spec.similarity [[(0, x), (1, y)], [(0, z)]] 1 0 = y * x := by
      intro x y z
      simp [Spec.similarity, Spec.cell, Spec.sumAt]
    have hw : ∀ w : Nat → Nat → ℝ → ℝ, weightRows w c78Counts = [[(0, w 0 0 1), (1, w 1 0 1)], [(0, w 0 1 1)]] := fun _ => rfl
    congr 1
    rw [hw, hsim]
    simp only [hl0, hl1]
    have h2 : ((c78Counts.getD 0 []).length : ℝ) = 2 := by simp [c78Counts]
    rw [h2]
    norm_num
    ring
  obtain ⟨sim, row, e, hr, hv⟩ := key 4 (by omega) (by omega)
  obtain ⟨sim', row', e', hr', hv'⟩ := key 5 (by omega) (by omega)
  refine ⟨sim, sim', row, row', _, _, e, e', hr, hr', hv, hv', ?_⟩
  push_cast
  have h34 : Real.log 3 < Real.log 4 := Real.log_lt_log (by norm_num) (by norm_num)
  have h : 3 * (Real.log 4 - Real.log 3) < 2 * (Real.log 5 - Real.log 3) := by
    have h1 : Real.log (4 ^ 3 * 3 ^ 2) < Real.log (5 ^ 2 * 3 ^ 3) := Real.log_lt_log (by norm_num) (by norm_num)
    rw [Real.log_mul (by norm_num) (by norm_num), Real.log_mul (by norm_num) (by norm_num), Real.log_pow, Real.log_pow, Real.log_pow,
      Real.log_pow] at h1
    push_cast at h1
    linarith
  have hsq : 9 * (Real.log 4 - Real.log 3) ^ 2 < 4 * (Real.log 5 - Real.log 3) ^ 2 := by nlinarith
  have hp : 0 < (Real.log 4 - Real.log 3) ^ 2 := by
    have : 0 < Real.log 4 - Real.log 3 := by linarith
    positivity
  norm_num
  nlinarith

end Implicit
