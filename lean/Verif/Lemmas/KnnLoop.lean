import Verif.Lemmas.Knn
import Verif.Lemmas.Memory
import Mathlib.Data.List.Sort
import Mathlib.Data.List.Dedup

/-!
# The loop of `all_pairs_knn`, its output arrays and the conversion to CSR
-/

set_option linter.unusedSectionVars false

namespace Implicit

/-! ## Slots -/

theorem slot_lt {n K i pos : Nat} (hi : i < n) (hp : pos < K) : K * i + pos < n * K := by
  have h1 : K * (i + 1) ≤ K * n := Nat.mul_le_mul_left K hi
  have h2 : K * (i + 1) = K * i + K := by ring
  have h3 : K * n = n * K := Nat.mul_comm _ _
  omega

/-- Without overflow the slots are the obvious ones. -/
theorem knnSlot_eq {n K i pos : Nat} (hnK : n * K ≤ 2 ^ 31) (hi : i < n) (hp : pos < K) :
    knnSlot n K i pos = .ok (K * i + pos) := by
  have hlt := slot_lt hi hp
  have h0 : K * i < 2 ^ 31 := by omega
  have halloc : knnAllocated n K = n * K := by
    unfold knnAllocated
    exact Nat.mod_eq_of_lt (by omega)
  have hb : Int.bmod ((K * i : Nat) : Int) (2 ^ 32) = ((K * i : Nat) : Int) := by
    rw [Int.bmod_eq_of_le] <;> norm_num <;> omega
  unfold knnSlot
  simp only [hb, halloc]
  have hA : ¬ (2 : Int) ^ 31 ≤ ((K * i : Nat) : Int) + (pos : Int) := by
    norm_num at hnK ⊢; omega
  have hB : ¬ ((K * i : Nat) : Int) + (pos : Int) < 0 := by omega
  rw [if_neg hA]
  simp only [if_neg hB]
  rw [if_pos (by constructor <;> omega)]
  congr 1

section
variable {β γ : Type}

/-! ## Writing blocks -/

/-- Writing the values of a list to consecutive cells. -/
theorem writeAll_block (z : γ) (f : β → γ) : ∀ (xs : List β) (pre : List γ) (k : Nat) (post : List γ),
    xs.length ≤ k →
    writeAll (pre ++ (List.replicate k z ++ post))
      ((xs.zipIdx pre.length).map fun p => (p.2, f p.1)) =
      .ok (pre ++ (xs.map f ++ (List.replicate (k - xs.length) z ++ post)))
  | [], pre, k, post, _ => by simp [writeAll]
  | x :: xs, pre, k, post, h => by
    obtain ⟨k, rfl⟩ : ∃ k', k = k' + 1 := ⟨k - 1, by simp at h; omega⟩
    have ih := writeAll_block z f xs (pre ++ [f x]) k post (by simpa using h)
    rw [List.zipIdx_cons, List.map_cons, writeAll_cons]
    unfold writeCell
    rw [if_pos (by simp)]
    have e : (pre ++ (List.replicate (k + 1) z ++ post)).set pre.length (f x) =
        (pre ++ [f x]) ++ (List.replicate k z ++ post) := by
      rw [List.set_append_right _ _ (le_refl _)]
      simp [List.replicate_succ]
    simp only [e, Except.bind]
    rw [show pre.length + 1 = (pre ++ [f x]).length by simp, ih]
    simp

end

variable {R : Type} [LinearOrder R] [Field R]

/-- Heap contents of one item, starting from a clean accumulator. -/
def knnHeap (H : HeapImpl (R × Nat) pairLt) (n K : Nat) (M : SpRows R) (row : List (Nat × R)) :
    List (R × Nat) :=
  match knnRow H K M row (Accum.new n) with
  | .ok r => r.1
  | .error _ => []

/-- The stores of item `i` with heap contents `h`. -/
def slotStores (K i : Nat) (h : List (R × Nat)) : List (Nat × KnnCell R) :=
  (h.zipIdx (K * i)).map fun p => (p.2, (i, p.1.2, p.1.1))

/-- The slots of item `i` after the loop. -/
def slotBlock (K i : Nat) (h : List (R × Nat)) : List (KnnCell R) :=
  h.map (fun p => (i, p.2, p.1)) ++ List.replicate (K - h.length) (0, 0, 0)

theorem knnStores_eq {n K i : Nat} (hnK : n * K ≤ 2 ^ 31) (hi : i < n) {h : List (R × Nat)}
    (hl : h.length ≤ K) : knnStores n K i h = .ok (slotStores K i h) := by
  unfold knnStores
  rw [mapM_ok_of (h := fun p : (R × Nat) × Nat => (K * i + p.2, (i, p.1.2, p.1.1)))]
  · unfold slotStores
    rw [List.zipIdx_eq_map_add (l := h) (i := K * i), List.map_map]
    congr 1
  · intro p hp
    have := mem_zipIdx_iff'.mp hp
    have hlt := (List.getElem?_eq_some_iff.mp this).1
    rw [knnSlot_eq hnK hi (by omega)]
    rfl

theorem knnLoop_eq (H : HeapImpl (R × Nat) pairLt) {n K : Nat} (hK : 1 ≤ K) (hnK : n * K ≤ 2 ^ 31)
    (M : SpRows R) (hM : ∀ r ∈ M, ∀ e ∈ r, e.1 < n) : ∀ (rows : SpRows R) (i : Nat),
    i + rows.length ≤ n → (∀ row ∈ rows, ∀ e ∈ row, e.1 < M.length) →
    knnLoop H n K M i rows (Accum.new n) =
      .ok ((rows.zipIdx i).flatMap (fun p => slotStores K p.2 (knnHeap H n K M p.1)), Accum.new n)
  | [], i, _, _ => rfl
  | row :: rows, i, hi, hrows => by
    obtain ⟨h, e1, hl, -, -⟩ := knnRow_ok H hK M hM row (hrows row (by simp))
    have hh : knnHeap H n K M row = h := by unfold knnHeap; rw [e1]
    have ih := knnLoop_eq H hK hnK M hM rows (i + 1) (by simp at hi; omega)
      (fun r hr => hrows r (by simp [hr]))
    unfold knnLoop
    simp only [e1, bind, Except.bind, knnStores_eq hnK (show i < n by simp at hi; omega) hl, ih]
    rw [List.zipIdx_cons, List.flatMap_cons, hh]
    rfl

/-- Column `i` of the matrix. -/
def colOf (n : Nat) (M : SpRows R) (i : Nat) : List (Nat × R) := (transposeRows n M).getD i []

theorem colOf_get {n : Nat} (M : SpRows R) {i : Nat} (hi : i < n) :
    (transposeRows n M)[i]? = some (colOf n M i) := by
  unfold colOf
  rw [List.getD_eq_getElem?_getD, List.getElem?_eq_getElem (by rw [transpose_length]; exact hi)]; rfl

theorem colOf_bound {n : Nat} (M : SpRows R) {i : Nat} (hi : i < n) :
    ∀ e ∈ colOf n M i, e.1 < M.length := by
  intro e he
  obtain ⟨row, hr, -⟩ := (mem_transpose (colOf_get M hi)).mp (show (e.1, e.2) ∈ _ from he)
  exact (List.getElem?_eq_some_iff.mp hr).1

theorem transpose_zipIdx (n : Nat) (M : SpRows R) :
    (transposeRows n M).zipIdx = (List.range n).map fun i => (colOf n M i, i) := by
  apply List.ext_getElem?
  intro i
  by_cases hi : i < n
  · rw [List.getElem?_zipIdx, colOf_get M hi]; simp [hi]
  · rw [List.getElem?_eq_none (by simp [transpose_length]; omega)]; simp [hi]

theorem writeAll_blocks (K : Nat) (g : Nat → List (R × Nat)) (hg : ∀ i, (g i).length ≤ K) :
    ∀ (m i : Nat) (pre : List (KnnCell R)), pre.length = K * i →
    writeAll (pre ++ List.replicate (m * K) (0, 0, 0))
      ((List.range' i m).flatMap fun i => slotStores K i (g i)) =
      .ok (pre ++ (List.range' i m).flatMap fun i => slotBlock K i (g i))
  | 0, i, pre, _ => by simp [writeAll]
  | m + 1, i, pre, hpre => by
    rw [List.range'_succ, List.flatMap_cons, List.flatMap_cons, writeAll_append]
    have h1 := writeAll_block (0, 0, 0) (fun p : R × Nat => ((i, p.2, p.1) : KnnCell R)) (g i) pre K
      (List.replicate (m * K) (0, 0, 0)) (hg i)
    have e : List.replicate ((m + 1) * K) ((0, 0, 0) : KnnCell R) =
        List.replicate K (0, 0, 0) ++ List.replicate (m * K) (0, 0, 0) := by
      rw [List.replicate_append_replicate]; congr 1; ring
    rw [hpre] at h1
    unfold slotStores
    rw [e, h1]
    simp only [Except.bind]
    have h2 := writeAll_blocks K g hg m (i + 1) (pre ++ slotBlock K i (g i)) (by
      unfold slotBlock
      have := hg i
      simp [hpre, Nat.mul_add]; omega)
    unfold slotStores slotBlock at h2
    unfold slotBlock
    simp only [List.append_assoc] at h2 ⊢
    exact h2

/-- What the output arrays hold after the loop. -/
theorem allPairsKnn_eq (H : HeapImpl (R × Nat) pairLt) {n K : Nat} (hK : 1 ≤ K)
    (hnK : n * K ≤ 2 ^ 31) (M : SpRows R) (hM : ∀ r ∈ M, ∀ e ∈ r, e.1 < n) :
    allPairsKnn H n K M =
      .ok ((List.range n).flatMap fun i => slotBlock K i (knnHeap H n K M (colOf n M i))) := by
  have hloop := knnLoop_eq H hK hnK M hM (transposeRows n M) 0 (by simp [transpose_length]) (by
    intro row hrow
    obtain ⟨i, hi⟩ := List.mem_iff_getElem?.mp hrow
    have hin : i < n := by
      have := (List.getElem?_eq_some_iff.mp hi).1
      rwa [transpose_length] at this
    rw [colOf_get M hin] at hi
    cases hi
    exact colOf_bound M hin)
  rw [transpose_zipIdx, List.flatMap_map] at hloop
  have hg : ∀ i, (if i < n then knnHeap H n K M (colOf n M i) else []).length ≤ K := by
    intro i
    split_ifs with hi
    · obtain ⟨h, e1, hl, -, -⟩ := knnRow_ok H hK M hM _ (colOf_bound M hi)
      have hh : knnHeap H n K M (colOf n M i) = h := by unfold knnHeap; rw [e1]
      rw [hh]; exact hl
    · simp
  have hw := writeAll_blocks K (fun i => if i < n then knnHeap H n K M (colOf n M i) else []) hg n 0
    [] (by simp)
  rw [← List.range_eq_range'] at hw
  have hc1 : ((List.range n).flatMap fun i => slotStores K i
      (if i < n then knnHeap H n K M (colOf n M i) else [])) =
      (List.range n).flatMap fun i => slotStores K i (knnHeap H n K M (colOf n M i)) :=
    List.flatMap_congr fun i hi => by rw [if_pos (List.mem_range.mp hi)]
  have hc2 : ((List.range n).flatMap fun i => slotBlock K i
      (if i < n then knnHeap H n K M (colOf n M i) else [])) =
      (List.range n).flatMap fun i => slotBlock K i (knnHeap H n K M (colOf n M i)) :=
    List.flatMap_congr fun i hi => by rw [if_pos (List.mem_range.mp hi)]
  rw [hc1, hc2] at hw
  have halloc : knnAllocated n K = n * K := by
    unfold knnAllocated
    exact Nat.mod_eq_of_lt (by omega)
  unfold allPairsKnn
  simp only [hloop, bind, Except.bind, halloc]
  simpa using hw

/-! ## `coo_matrix(...).tocsr()` -/

theorem coalesce_keys (es : List (Nat × R)) :
    (coalesce es).map Prod.fst = (es.map Prod.fst).dedup.insertionSort (· ≤ ·) := by
  unfold coalesce
  rw [List.map_map]
  simp [Function.comp_def]

theorem coalesce_sorted (es : List (Nat × R)) : ((coalesce es).map Prod.fst).Pairwise (· < ·) := by
  rw [coalesce_keys]
  have h1 : ((es.map Prod.fst).dedup.insertionSort (· ≤ ·)).Pairwise (· ≤ ·) :=
    List.pairwise_insertionSort _ _
  have h2 : ((es.map Prod.fst).dedup.insertionSort (· ≤ ·)).Nodup :=
    (List.perm_insertionSort _ _).nodup_iff.mpr (List.nodup_dedup _)
  exact List.Pairwise.imp₂ (fun a b h h' => lt_of_le_of_ne h h') h1 h2

theorem mem_coalesce (es : List (Nat × R)) (c : Nat) (v : R) :
    (c, v) ∈ coalesce es ↔ Spec.Stored es c ∧ v = Spec.sumAt es c := by
  rw [← totalAt_eq_sumAt]
  unfold coalesce
  rw [List.mem_map]
  constructor
  · rintro ⟨c', hc', he⟩
    cases he
    have := List.mem_dedup.mp ((List.perm_insertionSort _ _).mem_iff.mp hc')
    obtain ⟨x, hx, rfl⟩ := List.mem_map.mp this
    exact ⟨⟨x.2, hx⟩, rfl⟩
  · rintro ⟨⟨w, hw⟩, rfl⟩
    refine ⟨c, (List.perm_insertionSort _ _).mem_iff.mpr (List.mem_dedup.mpr
      (List.mem_map.mpr ⟨_, hw, rfl⟩)), rfl⟩

/-- In a row without repeated columns the cell is the stored value. -/
theorem sumAt_of_mem {es : List (Nat × R)} (hnd : (es.map Prod.fst).Nodup) {c : Nat} {v : R}
    (h : (c, v) ∈ es) : Spec.sumAt es c = v := by
  induction es with
  | nil => simp at h
  | cons e es ih =>
    rw [List.map_cons, List.nodup_cons] at hnd
    obtain ⟨i, w⟩ := e
    unfold Spec.sumAt
    rcases List.mem_cons.mp h with he | h
    · cases he
      rw [if_pos rfl, sumAt_eq_zero, add_zero]
      rintro ⟨w, hw⟩
      exact hnd.1 (List.mem_map.mpr ⟨_, hw, rfl⟩)
    · have hne : i ≠ c := by
        rintro rfl
        exact hnd.1 (List.mem_map.mpr ⟨_, h, rfl⟩)
      rw [if_neg hne, ih hnd.2 h, zero_add]

/-- The entries of COO row `r`. -/
def cooRow (r : Nat) (cells : List (KnnCell R)) : List (Nat × R) :=
  (cells.filter fun c => c.1 == r).map fun c => (c.2.1, c.2.2)

theorem cooRow_append (r : Nat) (a b : List (KnnCell R)) :
    cooRow r (a ++ b) = cooRow r a ++ cooRow r b := by
  unfold cooRow; rw [List.filter_append, List.map_append]

theorem mem_cooRow {r : Nat} {cells : List (KnnCell R)} {c : Nat} {v : R} :
    (c, v) ∈ cooRow r cells ↔ (r, c, v) ∈ cells := by
  unfold cooRow
  simp only [List.mem_map, List.mem_filter, beq_iff_eq, Prod.exists, Prod.mk.injEq]
  constructor
  · rintro ⟨a, b, d, ⟨hmem, rfl⟩, rfl, rfl⟩; exact hmem
  · intro h; exact ⟨r, c, v, ⟨h, rfl⟩, rfl, rfl⟩

theorem sumAt_zeros {es : List (Nat × R)} (h : ∀ e ∈ es, e.2 = 0) (c : Nat) :
    Spec.sumAt es c = 0 := by
  induction es with
  | nil => rfl
  | cons e es ih =>
    obtain ⟨i, v⟩ := e
    have hv : v = 0 := h (i, v) (by simp)
    unfold Spec.sumAt
    rw [ih (fun x hx => h x (by simp [hx])), hv]
    simp

theorem sumAt_cooRow_block (K i r : Nat) (h : List (R × Nat)) (c : Nat) :
    Spec.sumAt (cooRow r (slotBlock K i h)) c =
      if i = r then Spec.sumAt (h.map Prod.swap) c else 0 := by
  unfold slotBlock
  rw [cooRow_append, sumAt_append]
  have hz : Spec.sumAt (cooRow r (List.replicate (K - h.length) ((0, 0, 0) : KnnCell R))) c = 0 := by
    refine sumAt_zeros (fun e he => ?_) c
    have : (r, e.1, e.2) ∈ List.replicate (K - h.length) ((0, 0, 0) : KnnCell R) :=
      mem_cooRow.mp (show (e.1, e.2) ∈ _ from he)
    have := (List.mem_replicate.mp this).2
    simp only [Prod.mk.injEq] at this
    exact this.2.2
  rw [hz, add_zero]
  split_ifs with hir
  · subst hir
    congr 1
    unfold cooRow
    rw [List.filter_eq_self.mpr (by
      intro x hx
      obtain ⟨y, -, rfl⟩ := List.mem_map.mp hx
      simp), List.map_map]
    rfl
  · have : cooRow r (h.map fun p => ((i, p.2, p.1) : KnnCell R)) = [] := by
      unfold cooRow
      rw [List.filter_eq_nil_iff.mpr]
      · rfl
      · intro x hx
        obtain ⟨y, -, rfl⟩ := List.mem_map.mp hx
        simpa using hir
    rw [this]; rfl

theorem sumAt_cooRow_blocks (K r : Nat) (g : Nat → List (R × Nat)) (c : Nat) (is : List Nat)
    (hnd : is.Nodup) :
    Spec.sumAt (cooRow r (is.flatMap fun i => slotBlock K i (g i))) c =
      if r ∈ is then Spec.sumAt ((g r).map Prod.swap) c else 0 := by
  induction is with
  | nil => simp [cooRow, Spec.sumAt]
  | cons i is ih =>
    rw [List.nodup_cons] at hnd
    rw [List.flatMap_cons, cooRow_append, sumAt_append, ih hnd.2, sumAt_cooRow_block]
    by_cases hir : i = r
    · subst hir; simp [hnd.1]
    · have : r ≠ i := fun e => hir e.symm
      simp [hir, this]

/-- Row `r` of the similarity matrix. -/
theorem mem_knn_row {n K r : Nat} (hr : r < n) (g : Nat → List (R × Nat))
    (hnd : ((g r).map Prod.snd).Nodup) (c : Nat) (v : R) :
    (c, v) ∈ coalesce (cooRow r ((List.range n).flatMap fun i => slotBlock K i (g i))) ↔
      (v, c) ∈ g r ∨ (r = 0 ∧ c = 0 ∧ v = 0 ∧ 0 ∉ (g 0).map Prod.snd ∧
        ∃ i < n, (g i).length < K) := by
  have hnd' : (((g r).map Prod.swap).map Prod.fst).Nodup := by
    rw [List.map_map]; exact hnd
  rw [mem_coalesce, sumAt_cooRow_blocks K r g c _ List.nodup_range, if_pos (List.mem_range.mpr hr)]
  have hst : Spec.Stored (cooRow r ((List.range n).flatMap fun i => slotBlock K i (g i))) c ↔
      c ∈ (g r).map Prod.snd ∨ (r = 0 ∧ c = 0 ∧ ∃ i < n, (g i).length < K) := by
    unfold Spec.Stored
    constructor
    · rintro ⟨w, hw⟩
      rw [mem_cooRow] at hw
      obtain ⟨i, hi, hw⟩ := List.mem_flatMap.mp hw
      have hi := List.mem_range.mp hi
      unfold slotBlock at hw
      rcases List.mem_append.mp hw with hw | hw
      · obtain ⟨x, hx, he⟩ := List.mem_map.mp hw
        cases he
        exact Or.inl (List.mem_map.mpr ⟨x, hx, rfl⟩)
      · have h0 := List.mem_replicate.mp hw
        simp only [Prod.mk.injEq] at h0
        exact Or.inr ⟨h0.2.1, h0.2.2.1, i, hi, by omega⟩
    · rintro (h | ⟨rfl, rfl, i, hi, hlt⟩)
      · obtain ⟨x, hx, rfl⟩ := List.mem_map.mp h
        refine ⟨x.1, mem_cooRow.mpr (List.mem_flatMap.mpr ⟨r, List.mem_range.mpr hr, ?_⟩)⟩
        unfold slotBlock
        exact List.mem_append.mpr (Or.inl (List.mem_map.mpr ⟨x, hx, rfl⟩))
      · refine ⟨0, mem_cooRow.mpr (List.mem_flatMap.mpr ⟨i, List.mem_range.mpr hi, ?_⟩)⟩
        unfold slotBlock
        exact List.mem_append.mpr (Or.inr (List.mem_replicate.mpr ⟨by omega, rfl⟩))
  rw [hst]
  constructor
  · rintro ⟨h | ⟨rfl, rfl, h⟩, rfl⟩
    · obtain ⟨x, hx, rfl⟩ := List.mem_map.mp h
      left
      have : (x.2, x.1) ∈ (g r).map Prod.swap := List.mem_map.mpr ⟨x, hx, rfl⟩
      rw [sumAt_of_mem hnd' this]
      exact hx
    · by_cases h0 : 0 ∈ (g 0).map Prod.snd
      · left
        obtain ⟨x, hx, h0⟩ := List.mem_map.mp h0
        have : (x.2, x.1) ∈ (g 0).map Prod.swap := List.mem_map.mpr ⟨x, hx, rfl⟩
        rw [h0] at this
        rw [sumAt_of_mem hnd' this]
        have : x = (x.1, 0) := by rw [← h0]
        rw [← this]
        exact hx
      · right
        refine ⟨rfl, rfl, ?_, h0, h⟩
        rw [sumAt_eq_zero]
        rintro ⟨w, hw⟩
        obtain ⟨x, hx, he⟩ := List.mem_map.mp hw
        exact h0 (List.mem_map.mpr ⟨x, hx, by rw [← Prod.fst_swap, he]⟩)
  · rintro (h | ⟨rfl, rfl, rfl, h0, h⟩)
    · have : (c, v) ∈ (g r).map Prod.swap := List.mem_map.mpr ⟨_, h, rfl⟩
      exact ⟨Or.inl (List.mem_map.mpr ⟨_, h, rfl⟩), (sumAt_of_mem hnd' this).symm⟩
    · refine ⟨Or.inr ⟨rfl, rfl, h⟩, ?_⟩
      rw [sumAt_eq_zero]
      rintro ⟨w, hw⟩
      obtain ⟨x, hx, he⟩ := List.mem_map.mp hw
      exact h0 (List.mem_map.mpr ⟨x, hx, by rw [← Prod.fst_swap, he]⟩)

end Implicit
