import Verif.Lemmas.KnnLoop
import Verif.Lemmas.KnnScorer
import Verif.Lemmas.Rounding
import Verif.Model.RoundKnn
import Verif.Spec.ApproxKnn

set_option linter.unusedSectionVars false

namespace Implicit

/-- Values added to index `j`, one after the other. -/
def foldAt {R : Type} [Add R] (es : List (Nat × R)) (j : Nat) (s : R) : R :=
  ((es.filter fun e => e.1 == j).map Prod.snd).foldl (· + ·) s

/-- A sequence of `add`s, for any addition. -/
theorem Rep.addAll_fold {R : Type} [Zero R] [Add R] {n : Nat} : ∀ (es : List (Nat × R)) {a : Accum R} {l : List Nat} {s : Nat → R},
    Rep n a l s → a.length = l.length → (∀ e ∈ es, e.1 < n) →
    ∃ a' l', a.addAll es = .ok a' ∧ Rep n a' l' (fun j => foldAt es j (s j)) ∧
      a'.length = l'.length ∧ ∀ j, j ∈ l' ↔ j ∈ l ∨ j ∈ es.map Prod.fst
  | [], a, l, s, h, hlen, _ => ⟨a, l, rfl, by simpa [foldAt] using h, hlen, by simp⟩
  | e :: es, a, l, s, h, hlen, hes => by
    obtain ⟨a1, e1, h1, hlen1⟩ := h.add (hes e (by simp)) e.2 hlen
    obtain ⟨a2, l2, e2, h2, hlen2, hmem⟩ := Rep.addAll_fold es h1 hlen1 (fun x hx => hes x (by simp [hx]))
    refine ⟨a2, l2, by unfold Accum.addAll; rw [e1]; exact e2, ?_, hlen2, ?_⟩
    · have : (fun j => foldAt (e :: es) j (s j)) = fun j => foldAt es j (Function.update s e.1 (s e.1 + e.2) j) := by
        funext j
        unfold foldAt
        rw [List.filter_cons]
        by_cases hj : j = e.1
        · subst hj
          simp
        · have : (e.1 == j) = false := by simpa using fun h => hj h.symm
          simp only [this, Bool.false_eq_true, if_false, Function.update_of_ne hj]
      rw [this]; exact h2
    · intro j
      rw [hmem, List.map_cons, List.mem_cons]
      split_ifs with hin
      · constructor
        · rintro (h | h)
          · exact Or.inl h
          · exact Or.inr (Or.inr h)
        · rintro (h | rfl | h)
          · exact Or.inl h
          · exact Or.inl hin
          · exact Or.inr h
      · rw [List.mem_cons]; tauto

/-- `add`s from a clean accumulator, then `foreach`. -/
theorem round_ok_fold {R : Type} [Zero R] [Add R] {n : Nat} (es : List (Nat × R)) (hes : ∀ e ∈ es, e.1 < n) :
    ∃ a l, (Accum.new n : Accum R).addAll es = .ok a ∧ Rep n a l (fun j => foldAt es j 0) ∧
      a.length = l.length ∧ (∀ j, j ∈ l ↔ j ∈ es.map Prod.fst) ∧
      a.foreach = .ok (l.map fun i => (i, foldAt es i 0), Accum.new n) := by
  obtain ⟨a, l, e1, h, hlen, hmem⟩ := Rep.addAll_fold es (Rep.new (R := R) n) rfl hes
  refine ⟨a, l, e1, h, hlen, by simpa using hmem, ?_⟩
  unfold Accum.foreach
  rw [hlen]
  exact h.drain

section
variable {R : Type} [LinearOrder R] [Field R]

/-- The sum of rounded products, rounded after every addition. -/
def roundSum (r : Rounding R) (ps : List (R × R)) : R :=
  (ps.map fun p => r.rnd (p.1 * p.2)).foldl (fun s v => r.rnd (s + v)) 0

/-- The factors of the products added to item `j`. -/
def pairsAt (M : SpRows R) (row : List (Nat × R)) (j : Nat) : List (R × R) :=
  row.flatMap fun e => ((M.getD e.1 []).filter fun x => x.1 == j).map fun x => (x.2, e.2)

theorem roundProducts_ok (r : Rounding R) (M : SpRows R) : ∀ (row : List (Nat × R)), (∀ e ∈ row, e.1 < M.length) →
    ∃ adds, roundProducts r M row = .ok adds ∧
      adds = row.flatMap fun e => (M.getD e.1 []).map fun x => (x.1, r.rnd (x.2 * e.2))
  | [], _ => ⟨[], rfl, rfl⟩
  | e :: row, h => by
    obtain ⟨adds, e1, h1⟩ := roundProducts_ok r M row (fun x hx => h x (by simp [hx]))
    have hlt := h e (by simp)
    have hM : M[e.1]? = some (M.getD e.1 []) := by
      rw [List.getD_eq_getElem?_getD, List.getElem?_eq_getElem hlt]; rfl
    refine ⟨_, by unfold roundProducts; simp only [hM, e1]; rfl, ?_⟩
    rw [h1]; rfl

/-- What is added up at item `j`. -/
theorem foldAt_products (r : Rounding R) (M : SpRows R) (row : List (Nat × R)) (j : Nat) :
    @foldAt R r.toAdd (row.flatMap fun e => (M.getD e.1 []).map fun x => (x.1, r.rnd (x.2 * e.2))) j 0 =
      roundSum r (pairsAt M row j) := by
  unfold foldAt roundSum pairsAt
  rw [List.map_flatMap, List.filter_flatMap, List.map_flatMap]
  congr 1
  apply List.flatMap_congr
  intro e _
  rw [List.filter_map, List.map_map, List.map_map]
  rfl

theorem mem_products (r : Rounding R) (M : SpRows R) (row : List (Nat × R)) (j : Nat) :
    j ∈ (row.flatMap fun e => (M.getD e.1 []).map fun x => (x.1, r.rnd (x.2 * e.2))).map Prod.fst ↔ Spec.Reachable M row j := by
  unfold Spec.Reachable Spec.Stored
  simp only [List.map_flatMap, List.mem_flatMap, List.map_map, List.mem_map, Function.comp]
  constructor
  · rintro ⟨e, he, x, hx, rfl⟩; exact ⟨e, he, x.2, hx⟩
  · rintro ⟨e, he, v, hv⟩; exact ⟨e, he, (j, v), hv, rfl⟩

/-- The loops over a row, from a clean accumulator. -/
theorem roundAdds_ok (r : Rounding R) {n : Nat} (M : SpRows R) (hM : ∀ r ∈ M, ∀ e ∈ r, e.1 < n) (row : List (Nat × R))
    (hrow : ∀ e ∈ row, e.1 < M.length) :
    ∃ adds a l, roundProducts r M row = .ok adds ∧ roundAddAll r (Accum.new n) adds = .ok a ∧
      Rep n a l (fun j => roundSum r (pairsAt M row j)) ∧ a.length = l.length ∧ ((· ∈ l) = Spec.Reachable M row) := by
  obtain ⟨adds, e1, h1⟩ := roundProducts_ok r M row hrow
  letI := r.toAdd
  have hb : ∀ e ∈ adds, e.1 < n := by
    intro e he
    rw [h1, List.mem_flatMap] at he
    obtain ⟨x, hx, he⟩ := he
    obtain ⟨y, hy, rfl⟩ := List.mem_map.mp he
    have hlt := hrow x hx
    rw [List.getD_eq_getElem?_getD, List.getElem?_eq_getElem hlt] at hy
    exact hM _ (List.getElem_mem hlt) y hy
  obtain ⟨a, l, e2, h2, h3, h4, -⟩ := @round_ok_fold R _ r.toAdd n adds hb
  refine ⟨adds, a, l, e1, e2, ?_, h3, ?_⟩
  · have : (fun j => @foldAt R r.toAdd adds j 0) = fun j => roundSum r (pairsAt M row j) := by
      funext j; rw [h1, foldAt_products]
    rw [← this]; exact h2
  · funext j
    apply propext
    rw [← mem_products r, ← h1]
    exact h4 j

theorem roundRow_ok (H : HeapImpl (R × Nat) pairLt) (r : Rounding R) {K : Nat} (hK : 1 ≤ K) {n : Nat} (M : SpRows R)
    (hM : ∀ r ∈ M, ∀ e ∈ r, e.1 < n) (row : List (Nat × R)) (hrow : ∀ e ∈ row, e.1 < M.length) :
    ∃ h, roundRow H r K M row (Accum.new n) = .ok (h, Accum.new n) ∧ h.length ≤ K ∧
      Spec.IsRanking K (Spec.Reachable M row) (fun j => some (roundSum r (pairsAt M row j)))
        ((H.sort h).map Prod.swap) ∧ (H.sort h).Perm h := by
  obtain ⟨adds, a, l, e1, e2, hrep, hlen, hmem⟩ := roundAdds_ok r M hM row hrow
  have e3 : a.foreach = .ok (l.map fun i => (i, roundSum r (pairsAt M row i)), Accum.new n) := by
    unfold Accum.foreach
    rw [hlen]
    exact hrep.drain
  obtain ⟨h, e4, hrank, hp, hl⟩ := accum_heap H hK hrep.nodup (fun j => roundSum r (pairsAt M row j))
  refine ⟨h, ?_, hl, ?_, hp⟩
  · unfold roundRow
    rw [e1]
    simp only [bind, Except.bind, e2, e3, e4]
    rfl
  · rw [← hmem]; exact hrank

theorem roundScorer_ok (H : HeapImpl (R × Nat) pairLt) (r : Rounding R) (sim : SpRows R) (hsim : SquareRows sim)
    (row : List (Nat × R)) (hrow : ∀ e ∈ row, e.1 < sim.length) (K : Nat) (hK : 1 ≤ K) (rm : Bool) :
    ∃ out, roundScorer H r sim (Accum.new sim.length) row K rm = .ok (out, Accum.new sim.length) ∧
      Spec.IsRanking K (Spec.Reachable sim row)
        (fun j => some (if rm = true ∧ j ∈ row.map Prod.fst then 0 else roundSum r (pairsAt sim row j))) out := by
  obtain ⟨adds, a, l, e1, e2, hrep, hlen, hmem⟩ := roundAdds_ok r sim hsim row hrow
  cases rm with
  | false =>
    have e3 : a.foreach = .ok (l.map fun i => (i, roundSum r (pairsAt sim row i)), Accum.new sim.length) := by
      unfold Accum.foreach
      rw [hlen]
      exact hrep.drain
    obtain ⟨h, e4, hrank, hp, hl⟩ := accum_heap H hK hrep.nodup (fun j => roundSum r (pairsAt sim row j))
    refine ⟨(H.sort h).map Prod.swap, ?_, ?_⟩
    · unfold roundScorer
      rw [e1]
      simp only [bind, Except.bind, e2, Bool.false_eq_true, if_false, pure, Except.pure, e3, e4]
    · rw [hmem] at hrank
      simpa using hrank
  | true =>
    obtain ⟨a', e5, hrep', hlen'⟩ := hrep.clearAll (row.map Prod.fst) (by
      intro i hi
      obtain ⟨e, he, rfl⟩ := List.mem_map.mp hi
      exact hrow e he)
    have e6 : a'.foreach = .ok (l.map fun i => (i, if i ∈ row.map Prod.fst then 0 else roundSum r (pairsAt sim row i)),
        Accum.new sim.length) := by
      unfold Accum.foreach
      rw [hlen', hlen]
      exact hrep'.drain
    obtain ⟨h, e4, hrank, hp, hl⟩ := accum_heap H hK hrep.nodup
      (fun i => if i ∈ row.map Prod.fst then 0 else roundSum r (pairsAt sim row i))
    refine ⟨(H.sort h).map Prod.swap, ?_, ?_⟩
    · unfold roundScorer
      rw [e1]
      simp only [bind, Except.bind, e2, if_true, e5, pure, Except.pure, e6, e4]
    · rw [hmem] at hrank
      simpa only [true_and] using hrank

/-! ## The loop over the items -/

/-- What is left of item `i`'s heap. -/
def roundHeap (H : HeapImpl (R × Nat) pairLt) (r : Rounding R) (n K : Nat) (M : SpRows R) (row : List (Nat × R)) : List (R × Nat) :=
  match roundRow H r K M row (Accum.new n) with
  | .ok d => d.1
  | .error _ => []

theorem roundLoop_eq (H : HeapImpl (R × Nat) pairLt) (r : Rounding R) {n K : Nat} (hK : 1 ≤ K) (hnK : n * K ≤ 2 ^ 31)
    (M : SpRows R) (hM : ∀ r ∈ M, ∀ e ∈ r, e.1 < n) : ∀ (rows : SpRows R) (i : Nat),
    i + rows.length ≤ n → (∀ row ∈ rows, ∀ e ∈ row, e.1 < M.length) →
    roundLoop H r n K M i rows (Accum.new n) =
      .ok ((rows.zipIdx i).flatMap (fun p => slotStores K p.2 (roundHeap H r n K M p.1)), Accum.new n)
  | [], i, _, _ => rfl
  | row :: rows, i, hi, hrows => by
    obtain ⟨h, e1, hl, -, -⟩ := roundRow_ok H r hK M hM row (hrows row (by simp))
    have hh : roundHeap H r n K M row = h := by unfold roundHeap; rw [e1]
    have ih := roundLoop_eq H r hK hnK M hM rows (i + 1) (by simp at hi; omega)
      (fun r hr => hrows r (by simp [hr]))
    unfold roundLoop
    simp only [e1, bind, Except.bind, knnStores_eq hnK (show i < n by simp at hi; omega) hl, ih]
    rw [List.zipIdx_cons, List.flatMap_cons, hh]
    rfl

/-- The matrix that `fit` makes of the output arrays. -/
theorem roundKnnFit_eq (H : HeapImpl (R × Nat) pairLt) (r : Rounding R) {n K : Nat} (hK : 1 ≤ K)
    (hnK : n * K ≤ 2 ^ 31) (M : SpRows R) (hM : ∀ r ∈ M, ∀ e ∈ r, e.1 < n) :
    roundKnnFit H r n K M =
      .ok (cooToCsr n ((List.range n).flatMap fun i => slotBlock K i (roundHeap H r n K M (colOf n M i)))) := by
  have hloop := roundLoop_eq H r hK hnK M hM (transposeRows n M) 0 (by simp [transpose_length]) (by
    intro row hrow
    obtain ⟨i, hi⟩ := List.mem_iff_getElem?.mp hrow
    have hin : i < n := by
      have := (List.getElem?_eq_some_iff.mp hi).1
      rwa [transpose_length] at this
    rw [colOf_get M hin] at hi
    cases hi
    exact colOf_bound M hin)
  rw [transpose_zipIdx, List.flatMap_map] at hloop
  have hg : ∀ i, (if i < n then roundHeap H r n K M (colOf n M i) else []).length ≤ K := by
    intro i
    split_ifs with hi
    · obtain ⟨h, e1, hl, -, -⟩ := roundRow_ok H r hK M hM _ (colOf_bound M hi)
      have hh : roundHeap H r n K M (colOf n M i) = h := by unfold roundHeap; rw [e1]
      rw [hh]; exact hl
    · simp
  have hw := writeAll_blocks K (fun i => if i < n then roundHeap H r n K M (colOf n M i) else []) hg n 0
    [] (by simp)
  rw [← List.range_eq_range'] at hw
  have hc1 : ((List.range n).flatMap fun i => slotStores K i
      (if i < n then roundHeap H r n K M (colOf n M i) else [])) =
      (List.range n).flatMap fun i => slotStores K i (roundHeap H r n K M (colOf n M i)) :=
    List.flatMap_congr fun i hi => by rw [if_pos (List.mem_range.mp hi)]
  have hc2 : ((List.range n).flatMap fun i => slotBlock K i
      (if i < n then roundHeap H r n K M (colOf n M i) else [])) =
      (List.range n).flatMap fun i => slotBlock K i (roundHeap H r n K M (colOf n M i)) :=
    List.flatMap_congr fun i hi => by rw [if_pos (List.mem_range.mp hi)]
  rw [hc1, hc2] at hw
  have halloc : knnAllocated n K = n * K := by
    unfold knnAllocated
    exact Nat.mod_eq_of_lt (by omega)
  unfold roundKnnFit
  simp only [hloop, bind, Except.bind, halloc]
  simp only [List.nil_append] at hw
  rw [hw]
  rfl

/-! ## The products that go into one similarity -/

/-- The factors of the products of items `i` and `j`, user by user. -/
def colPairs (M : SpRows R) (i j : Nat) : List (R × R) :=
  M.flatMap fun row => (row.filter fun e => e.1 == i).flatMap fun w => (row.filter fun e => e.1 == j).map fun x => (x.2, w.2)

theorem pairsAt_col {n : Nat} (M : SpRows R) {i : Nat} (hi : i < n) (j : Nat) :
    pairsAt M (colOf n M i) j = colPairs M i j := by
  have hc : colOf n M i = M.zipIdx.flatMap fun ru => (ru.1.filter fun e => e.1 == i).map fun e => (ru.2, e.2) := by
    unfold colOf transposeRows
    simp [List.getD_eq_getElem?_getD, hi]
  unfold pairsAt colPairs
  rw [hc, List.flatMap_assoc]
  have : M = M.zipIdx.map Prod.fst := by simp
  conv_rhs => rw [this, List.flatMap_map]
  apply List.flatMap_congr
  rintro ⟨row, u⟩ hu
  have hu' : M[u]? = some row := by
    have := List.mem_zipIdx_iff_getElem?.mp hu
    simpa using this
  rw [List.flatMap_map]
  apply List.flatMap_congr
  intro w _
  simp [List.getD_eq_getElem?_getD, hu']

/-- A row without repeated columns has at most one entry in a column. -/
theorem filter_key {row : List (Nat × R)} (hnd : (row.map Prod.fst).Nodup) (i : Nat) :
    (row.filter fun e => e.1 == i) = if row.any (fun e => e.1 == i) then [(i, Spec.cell row i)] else [] := by
  unfold Spec.cell
  induction row with
  | nil => rfl
  | cons e row ih =>
    rw [List.map_cons, List.nodup_cons] at hnd
    obtain ⟨k, v⟩ := e
    by_cases h : k = i
    · subst h
      have hno : ∀ x ∈ row, x.1 ≠ k := fun x hx he => hnd.1 (List.mem_map.mpr ⟨x, hx, he⟩)
      have h0 : (row.filter fun e => e.1 == k) = [] := by
        rw [List.filter_eq_nil_iff]; intro x hx; simpa using hno x hx
      have h1 : Spec.sumAt row k = 0 := sumAt_eq_zero (by
        rintro ⟨w, hw⟩; exact hno _ hw rfl)
      simp [h0, Spec.sumAt, h1]
    · have hb : (k == i) = false := by simpa using h
      rw [List.filter_cons]
      simp only [hb, Bool.false_eq_true, if_false, List.any_cons, Bool.false_or, ih hnd.2, Spec.sumAt, if_neg h, zero_add]

theorem cell_of_not_any {row : List (Nat × R)} {i : Nat} (h : row.any (fun e => e.1 == i) = false) : Spec.cell row i = 0 :=
  sumAt_eq_zero (by
    rintro ⟨v, hv⟩
    have := List.any_eq_false.mp h _ hv
    simp at this)

theorem colPairs_eq {M : SpRows R} (hnd : ∀ row ∈ M, (row.map Prod.fst).Nodup) (i j : Nat) :
    colPairs M i j = M.flatMap fun row =>
      if row.any (fun e => e.1 == i) && row.any (fun e => e.1 == j) then [(Spec.cell row j, Spec.cell row i)] else [] := by
  unfold colPairs
  apply List.flatMap_congr
  intro row hrow
  rw [filter_key (hnd row hrow) i, filter_key (hnd row hrow) j]
  cases row.any (fun e => e.1 == i) <;> cases row.any (fun e => e.1 == j) <;> simp

theorem colPairs_swap {M : SpRows R} (hnd : ∀ row ∈ M, (row.map Prod.fst).Nodup) (i j : Nat) :
    colPairs M j i = (colPairs M i j).map Prod.swap := by
  rw [colPairs_eq hnd, colPairs_eq hnd, List.map_flatMap]
  apply List.flatMap_congr
  intro row _
  rw [Bool.and_comm]
  split_ifs <;> rfl

theorem roundSum_swap (r : Rounding R) (ps : List (R × R)) : roundSum r (ps.map Prod.swap) = roundSum r ps := by
  unfold roundSum
  rw [List.map_map]
  congr 1
  apply List.map_congr_left
  intro p _
  exact congrArg r.rnd (mul_comm _ _)

theorem colPairs_length {M : SpRows R} (hnd : ∀ row ∈ M, (row.map Prod.fst).Nodup) (i j : Nat) :
    (colPairs M i j).length = Spec.coRaters M i j := by
  rw [colPairs_eq hnd]
  unfold Spec.coRaters
  clear hnd
  induction M with
  | nil => rfl
  | cons row M ih =>
    rw [List.flatMap_cons, List.length_append, ih, List.countP_cons]
    split_ifs <;> simp [Nat.add_comm]

theorem colPairs_map {M : SpRows R} (hnd : ∀ row ∈ M, (row.map Prod.fst).Nodup) (g : R → R) (hg : g 0 = 0) (i j : Nat) :
    ((colPairs M i j).map fun p => g (p.1 * p.2)).sum = (M.map fun row => g (Spec.cell row i * Spec.cell row j)).sum := by
  rw [colPairs_eq hnd]
  clear hnd
  induction M with
  | nil => rfl
  | cons row M ih =>
    rw [List.flatMap_cons, List.map_append, List.sum_append, ih, List.map_cons, List.sum_cons]
    congr 1
    by_cases h1 : row.any (fun e => e.1 == i) = true
    · by_cases h2 : row.any (fun e => e.1 == j) = true
      · rw [h1, h2]; simp [mul_comm]
      · have h2 : row.any (fun e => e.1 == j) = false := Bool.eq_false_iff.mpr h2
        rw [cell_of_not_any h2, h1, h2]; simp [hg]
    · have h1 : row.any (fun e => e.1 == i) = false := Bool.eq_false_iff.mpr h1
      rw [cell_of_not_any h1, h1]; simp [hg]

theorem getD_nodup {sim : SpRows R} (hnd : ∀ row ∈ sim, (row.map Prod.fst).Nodup) (k : Nat) : ((sim.getD k []).map Prod.fst).Nodup := by
  rw [List.getD_eq_getElem?_getD]
  by_cases hk : k < sim.length
  · rw [List.getElem?_eq_getElem hk]; exact hnd _ (List.getElem_mem hk)
  · rw [List.getElem?_eq_none (by omega)]; simp

theorem pairsAt_eq {sim : SpRows R} (hnd : ∀ row ∈ sim, (row.map Prod.fst).Nodup) (row : List (Nat × R)) (j : Nat) :
    pairsAt sim row j = row.flatMap fun e =>
      if (sim.getD e.1 []).any (fun x => x.1 == j) then [(Spec.cell (sim.getD e.1 []) j, e.2)] else [] := by
  unfold pairsAt
  apply List.flatMap_congr
  intro e _
  rw [filter_key (getD_nodup hnd e.1) j]
  split_ifs <;> rfl

theorem pairsAt_length {sim : SpRows R} (hnd : ∀ row ∈ sim, (row.map Prod.fst).Nodup) (row : List (Nat × R)) (j : Nat) :
    (pairsAt sim row j).length = Spec.scoreTerms sim row j := by
  rw [pairsAt_eq hnd]
  unfold Spec.scoreTerms
  induction row with
  | nil => rfl
  | cons e row ih =>
    rw [List.flatMap_cons, List.length_append, ih, List.countP_cons]
    split_ifs <;> simp [Nat.add_comm]

theorem pairsAt_map {sim : SpRows R} (hnd : ∀ row ∈ sim, (row.map Prod.fst).Nodup) (g : R → R) (hg : g 0 = 0)
    (row : List (Nat × R)) (j : Nat) :
    ((pairsAt sim row j).map fun p => g (p.1 * p.2)).sum = (row.map fun e => g (e.2 * Spec.cell (sim.getD e.1 []) j)).sum := by
  rw [pairsAt_eq hnd]
  induction row with
  | nil => rfl
  | cons e row ih =>
    rw [List.flatMap_cons, List.map_append, List.sum_append, ih, List.map_cons, List.sum_cons]
    congr 1
    by_cases h : (sim.getD e.1 []).any (fun x => x.1 == j) = true
    · rw [h]; simp [mul_comm]
    · have h : (sim.getD e.1 []).any (fun x => x.1 == j) = false := Bool.eq_false_iff.mpr h
      rw [cell_of_not_any h, h]; simp [hg]

end

/-! ## Errors -/

section
variable {R : Type} [LinearOrder R] [Field R] [IsStrictOrderedRing R]

/-- The error of the sum of products, added one after the other. -/
theorem roundSum_error (r : Rounding R) (ps : List (R × R)) :
    |roundSum r ps - (ps.map fun p => p.1 * p.2).sum| ≤ Spec.sumError r.u r.η ps.length (ps.map fun p => |p.1 * p.2|).sum := by
  have hu := r.u_nonneg
  have hη := r.η_nonneg
  have h1u : 1 ≤ 1 + r.u := by linarith
  induction ps using List.reverseRecOn with
  | nil => simp [roundSum, Spec.sumError]
  | append_singleton ps p ih =>
    have hstep : roundSum r (ps ++ [p]) = r.rnd (roundSum r ps + r.rnd (p.1 * p.2)) := by
      unfold roundSum; simp
    set G : R := (1 + r.u) ^ (ps.length + 1) with hGdef
    have hG : 1 + r.u ≤ G := by
      rw [hGdef, pow_succ]
      have : 1 ≤ (1 + r.u) ^ ps.length := one_le_pow₀ h1u
      nlinarith
    have hx : |r.rnd (p.1 * p.2) - p.1 * p.2| ≤ (G - 1) * |p.1 * p.2| + G * r.η := by
      have h1 := r.err (p.1 * p.2)
      have h2 : r.u * |p.1 * p.2| ≤ (G - 1) * |p.1 * p.2| := mul_le_mul_of_nonneg_right (by linarith) (abs_nonneg _)
      have h3 : r.η ≤ G * r.η := by nlinarith
      linarith
    have hA : |(ps.map fun p => p.1 * p.2).sum| ≤ (ps.map fun p => |p.1 * p.2|).sum := by
      clear ih hstep hG hx hGdef
      induction ps with
      | nil => simp
      | cons q ps ih =>
        rw [List.map_cons, List.map_cons, List.sum_cons, List.sum_cons]
        exact (abs_add_le _ _).trans (add_le_add le_rfl ih)
    unfold Spec.sumError at ih ⊢
    rw [← hGdef] at ih
    have hsum : |(roundSum r ps + r.rnd (p.1 * p.2)) - ((ps.map fun p => p.1 * p.2).sum + p.1 * p.2)| ≤
        (G - 1) * ((ps.map fun p => |p.1 * p.2|).sum + |p.1 * p.2|) + (2 * (ps.length : R) + 1) * G * r.η := by
      have e : (roundSum r ps + r.rnd (p.1 * p.2)) - ((ps.map fun p => p.1 * p.2).sum + p.1 * p.2) =
        (roundSum r ps - (ps.map fun p => p.1 * p.2).sum) + (r.rnd (p.1 * p.2) - p.1 * p.2) := by ring
      rw [e]
      refine (abs_add_le _ _).trans ((add_le_add ih hx).trans (le_of_eq ?_))
      ring
    have := SumTree.round_step r hsum ((abs_add_le _ _).trans (add_le_add hA le_rfl)) (by linarith) (by positivity)
    rw [hstep, List.map_append, List.map_append, List.sum_append, List.sum_append, List.length_append]
    simp only [List.map_cons, List.map_nil, List.sum_cons, List.sum_nil, add_zero, List.length_singleton]
    refine this.trans (le_of_eq ?_)
    rw [pow_succ _ (ps.length + 1), ← hGdef]
    push_cast
    ring

theorem similarity_error (r : Rounding R) {M : SpRows R} (hnd : ∀ row ∈ M, (row.map Prod.fst).Nodup) (i j : Nat) :
    |roundSum r (colPairs M i j) - Spec.similarity M i j| ≤
      Spec.sumError r.u r.η (Spec.coRaters M i j) (Spec.similarityMass M i j) := by
  have := roundSum_error r (colPairs M i j)
  rw [colPairs_length hnd, colPairs_map hnd (fun x => |x|) abs_zero, colPairs_map hnd (fun x => x) rfl] at this
  exact this

theorem itemScore_error (r : Rounding R) {sim : SpRows R} (hnd : ∀ row ∈ sim, (row.map Prod.fst).Nodup) (row : List (Nat × R))
    (j : Nat) :
    |roundSum r (pairsAt sim row j) - Spec.itemScore sim row j| ≤
      Spec.sumError r.u r.η (Spec.scoreTerms sim row j) (Spec.itemMass sim row j) := by
  have := roundSum_error r (pairsAt sim row j)
  rw [pairsAt_length hnd, pairsAt_map hnd (fun x => |x|) abs_zero, pairsAt_map hnd (fun x => x) rfl] at this
  exact this

/-- A ranking by approximate scores. -/
theorem approx_of_ranking {K : Nat} {el : Nat → Prop} {s score ε : Nat → R} {out : List (Nat × R)}
    (h : Spec.IsRanking K el (fun j => some (s j)) out) (he : ∀ j, el j → |s j - score j| ≤ ε j) :
    Spec.ApproxRanking K el score ε out := by
  have hs : ∀ p ∈ out, p.2 = s p.1 := fun p hp => by
    have := (h.mem p hp).2
    simpa using this.symm
  refine ⟨fun p hp => ⟨(h.mem p hp).1, ?_⟩, h.distinct, ?_, h.atMost, h.complete, ?_⟩
  · rw [hs p hp]; exact he _ (h.mem p hp).1
  · have := List.Pairwise.and_mem.mp h.sorted
    refine this.imp ?_
    rintro a b ⟨ha, hb, hab⟩
    rw [hs a ha, hs b hb] at hab
    have h1 := abs_le.mp (he _ (h.mem a ha).1)
    have h2 := abs_le.mp (he _ (h.mem b hb).1)
    linarith [h1.1, h1.2, h2.1, h2.2]
  · intro j hj hjo p hp
    have h1 := abs_le.mp (he _ (h.mem p hp).1)
    have h2 := abs_le.mp (he _ hj)
    have h3 : s j ≤ p.2 := h.best j (s j) hj rfl hjo p hp
    rw [hs p hp] at h3
    linarith [h1.1, h1.2, h2.1, h2.2]

end

/-! ## IEEE 754 -/

section
variable {R : Type} [Field R] [LinearOrder R] [IsStrictOrderedRing R] [FloorRing R]

theorem roundEven_nearest (x : R) (z : Int) : |(roundEven x : R) - x| ≤ |(z : R) - x| := by
  have h1 := Int.floor_le x
  have h2 := Int.lt_floor_add_one x
  have hz : x - ⌊x⌋ ≤ |(z : R) - x| ∨ 1 - (x - ⌊x⌋) ≤ |(z : R) - x| := by
    rcases le_or_gt z ⌊x⌋ with h | h
    · left
      have : (z : R) ≤ ⌊x⌋ := by exact_mod_cast h
      rw [abs_sub_comm]
      exact le_trans (by linarith) (le_abs_self _)
    · right
      have : ((⌊x⌋ + 1 : Int) : R) ≤ z := by exact_mod_cast h
      push_cast at this
      exact le_trans (by linarith) (le_abs_self _)
  have hf : |((⌊x⌋ : Int) : R) - x| = x - ⌊x⌋ := by rw [abs_sub_comm, abs_of_nonneg (by linarith)]
  have hc : |((⌊x⌋ + 1 : Int) : R) - x| = 1 - (x - ⌊x⌋) := by
    push_cast
    rw [abs_of_nonneg (by linarith)]
    ring
  unfold roundEven
  split_ifs with c1 c2 c3
  · rw [hf]; rcases hz with h | h <;> linarith
  · rw [hc]; rcases hz with h | h <;> linarith
  · rw [hf]; rcases hz with h | h <;> linarith
  · rw [hc]; rcases hz with h | h <;> linarith

theorem roundEven_int (k : Int) : roundEven (k : R) = k := by
  unfold roundEven
  rw [Int.floor_intCast, sub_self, if_pos (by norm_num)]

theorem ieeeBits_err (p : Nat) (emin : Int) (x : R) : |ieeeBits p emin x - x| ≤ 2 ^ (-(p : Int)) * |x| + 2 ^ (emin - 1) := by
  refine le_trans ?_ (roundBits_err p emin x)
  have hpos := ulp_pos p emin x
  have e : ∀ k : Int, (k : R) * ulp p emin x - x = ((k : R) - x / ulp p emin x) * ulp p emin x := by
    intro k
    rw [sub_mul, div_mul_cancel₀ _ hpos.ne']
  unfold ieeeBits roundBits
  rw [e, e, abs_mul, abs_mul]
  exact mul_le_mul_of_nonneg_right (roundEven_nearest _ _) (abs_nonneg _)

/-- IEEE 754 arithmetic, as `binaryFloat` but with ties to even. -/
def ieee (p : Nat) (emin : Int) : Rounding R where
  rnd := ieeeBits p emin
  u := 2 ^ (-(p : Int))
  η := 2 ^ (emin - 1)
  u_nonneg := by positivity
  η_nonneg := by positivity
  err := ieeeBits_err p emin

end

end Implicit
