import Verif.Lemmas.GpuKnn
import Mathlib.Data.Rat.Defs
import Mathlib.Algebra.Order.Ring.Rat
import Mathlib.Tactic.NormNum

/-!
# C45: GPU top-k results are aligned with the queries

`C45_rows_partial`: for every batch size the memory plan picks, every stale content of the device buffers and
every `k` up to the number of items, row `r` of the answer is a selection of the `k` best items for query `r`,
filtered items scoring `low`.  Missing: `k` larger than the number of items (`C45_stride_violated`), half
precision (`C45_half_violated`) and queries whose result does not fit the memory (`C45_plan_violated`).
`C45_plan`: the plan succeeds, with a positive batch and within the memory, whenever the results and one row
of scores fit.
-/

set_option linter.unusedSectionVars false

namespace Implicit

variable {R : Type} [LinearOrder R] [Field R] {f : Nat}

/-- The memory plan: whenever `32` bytes for each result and one row of scores fit in the memory, a batch size
is found, all batches fit in the memory, and no batch is larger than the query. -/
theorem C45_plan {maxMem rows items k : Nat} (hi : 0 < items)
    (hfit : rows * k * 32 + items * 4 ≤ min maxMem (2 ^ 32)) :
    ∃ batch, gpuBatchSize maxMem 4 rows items k = .ok batch ∧ 1 ≤ batch ∧ batch ≤ max rows 1 ∧
      rows * k * 8 + batch * items * 4 ≤ maxMem ∧
      (batch < rows → min maxMem (2 ^ 32) < rows * k * 32 + (batch + 1) * items * 4) := by
  set P := rows * k with hP
  set M := min maxMem (2 ^ 32) with hM
  have hMle : M ≤ maxMem := Nat.min_le_left _ _
  have hM32 : M ≤ 2 ^ 32 := Nat.min_le_right _ _
  have hav : ((((M : Nat) : Int) - rows * k * 4 - rows * k * 4 - rows * k * 8 * 3) % 2 ^ 64).toNat = M - P * 32 := by
    have : (rows : Int) * k = (P : Int) := by rw [hP]; push_cast; rfl
    rw [this]; omega
  have hdiv : (M - P * 32) / (4 * items) * items * 4 ≤ M - P * 32 := by
    have := Nat.div_mul_le_self (M - P * 32) (4 * items)
    calc (M - P * 32) / (4 * items) * items * 4 = (M - P * 32) / (4 * items) * (4 * items) := by ring
      _ ≤ _ := this
  set d := (M - P * 32) / (4 * items) with hd
  have hd1 : 1 ≤ d := (Nat.le_div_iff_mul_le (by omega)).mpr (by omega)
  have hlt : M - P * 32 < (d + 1) * items * 4 := by
    have := Nat.lt_mul_div_succ (M - P * 32) (b := 4 * items) (by omega)
    rw [← hd] at this
    calc M - P * 32 < 4 * items * (d + 1) := this
      _ = _ := by ring
  set batch := max (min d rows) 1 with hb
  have hbd : batch ≤ d := by omega
  have hbm : batch * items * 4 ≤ M - P * 32 :=
    le_trans (Nat.mul_le_mul_right _ (Nat.mul_le_mul_right _ hbd)) hdiv
  refine ⟨batch, ?_, by omega, by omega, by omega, ?_⟩
  · unfold gpuBatchSize
    rw [if_neg (by omega), if_neg (by omega)]
    simp only [← hM, hav, ← hd, ← hb]
    rw [if_neg (by omega)]
  · intro hlt'
    have : batch = d := by omega
    rw [this]; omega

example : gpuBatchSize 1000 4 5 30 2 = .ok 5 := by decide +kernel
example : gpuBatchSize 800 4 5 30 2 = .ok 4 := by decide +kernel

/-- The plan never yields an empty batch, so the loop terminates, and its result always covers the rows of a
batch; this holds even when the memory counter wraps around. -/
theorem C45_positive {maxMem itemsize rows items k batch : Nat}
    (h : gpuBatchSize maxMem itemsize rows items k = .ok batch) : 1 ≤ batch ∧ 0 < items := by
  unfold gpuBatchSize at h
  by_cases h1 : items = 0
  · rw [if_pos h1] at h; cases h
  · rw [if_neg h1] at h
    by_cases h2 : maxMem < 2 * (rows * k * 4)
    · rw [if_pos h2] at h; cases h
    · rw [if_neg h2] at h
      dsimp only at h
      split at h
      · cases h
      · cases h
        exact ⟨le_max_right _ _, Nat.pos_of_ne_zero h1⟩

/-- For every query, garbage and memory: if the plan succeeds, `k` is at most the number of items and the
filters name existing items, the answer has one row per query and row `r` is a selection of the `k` best
scores of query `r`.  `sel` is RAFT's `select_k`, assumed correct. -/
theorem C45_rows_partial (sel : List R → Nat → List (R × Nat)) (low : R) (maxMem : Nat)
    (garbage : Nat → R × Nat) (garbageTemp : Nat → R) (q : GpuQuery f R) (k batch : Nat)
    (hsel : ∀ (l : List R) (k : Nat), k ≤ l.length → Spec.IsSelection k l (sel l k))
    (hplan : gpuBatchSize maxMem 4 q.query.length q.items.length k = .ok batch)
    (hk : k ≤ q.items.length)
    (hi : ∀ l ∈ q.itemFilter, ∀ c ∈ l, c < q.items.length)
    (hq : ∀ l ∈ q.queryFilter, ∀ e ∈ l, e.2 < q.items.length) :
    ∃ out, gpuTopk sel low maxMem 4 garbage garbageTemp q k = .ok out ∧ out.length = q.query.length ∧
      ∀ (r : Nat) (row : List (R × Nat)), out[r]? = some row →
        Spec.IsSelection k ((List.range q.items.length).map
          (Spec.queryScore low q.items q.query q.norms q.itemFilter q.queryFilter r)) row := by
  obtain ⟨hb1, hC⟩ := C45_positive hplan
  have hlen : ∀ l : List R, k ≤ l.length → (sel l k).length = k := fun l h => (hsel l k h).length
  obtain ⟨t', o', e, hl, hg⟩ := gpuLoop_ok sel low q (k := k) (b := batch - 1) hlen hC hk hi hq q.query.length 0
    ((List.range (batch * q.items.length * 4 / 4)).map garbageTemp)
    ((List.range (q.query.length * k)).map garbage) (by omega)
    (by
      rw [List.length_map, List.length_range, Nat.mul_div_cancel _ (by norm_num), Nat.sub_add_cancel hb1]
      exact Nat.mul_le_mul_right _ (Nat.min_le_left _ _))
    (by simp) (by intro a ha; simp at ha)
  refine ⟨(List.range q.query.length).map fun r => (o'.drop (r * k)).take k, ?_, by simp, ?_⟩
  · simp only [gpuTopk, bind, Except.bind, hplan, e]
  · intro r row hrow
    rw [List.getElem?_map] at hrow
    obtain ⟨r', hr', rfl⟩ := Option.map_eq_some_iff.mp hrow
    obtain ⟨hlt, e'⟩ := List.getElem?_eq_some_iff.mp hr'
    rw [List.getElem_range] at e'
    subst e'
    have hr : r < q.query.length := by simpa using hlt
    have hS : Spec.IsSelection k (gpuScoreRow low q r) (sel (gpuScoreRow low q r) k) :=
      hsel _ _ (by simpa [gpuScoreRow] using hk)
    have : (o'.drop (r * k)).take k = sel (gpuScoreRow low q r) k := by
      apply List.ext_getElem?
      intro j
      by_cases hj : j < k
      · rw [List.getElem?_take_of_lt hj, List.getElem?_drop, hg _ (by simpa using flat_lt hr hj)]
        have hj' : j < (sel (gpuScoreRow low q r) k).length := by rwa [hS.length]
        simp only [outCell, flat_div hj, flat_mod hj, List.getD_eq_getElem _ _ hj', List.getElem?_eq_getElem hj']
      · rw [List.getElem?_take, if_neg hj, List.getElem?_eq_none (by rw [hS.length]; omega)]
    rw [this]
    exact hS

/-! ### Concrete runs -/

/-- A selection by repeated extraction: the pairs ordered by score. -/
def selTest (l : List Rat) (k : Nat) : List (Rat × Nat) :=
  ((l.mapIdx fun i s => (s, i)).insertionSort fun a b => b.1 ≤ a.1).take k

def qTest : GpuQuery 1 Rat where
  items := [fun _ => 1, fun _ => 2, fun _ => 3]
  query := [fun _ => 1, fun _ => -1, fun _ => 2]
  norms := none
  itemFilter := some [1]
  queryFilter := some [(0, 2), (2, 0)]

/-- Three queries in batches of one row (the pool holds 12 results and two rows of scores). -/
example : gpuBatchSize 208 4 3 3 2 = .ok 1 ∧
    gpuTopk selTest (-100) 208 4 (fun _ => (7, 7)) (fun _ => 9) qTest 2 =
      .ok [[(1, 0), (-100, 1)], [(-1, 0), (-3, 2)], [(6, 2), (-100, 0)]] := by decide +kernel

/-- The same answer with one batch. -/
example : gpuBatchSize 2000 4 3 3 2 = .ok 3 ∧
    gpuTopk selTest (-100) 2000 4 (fun _ => (7, 7)) (fun _ => 9) qTest 2 =
      .ok [[(1, 0), (-100, 1)], [(-1, 0), (-3, 2)], [(6, 2), (-100, 0)]] := by decide +kernel

/-- With `k` larger than the number of items the rows of a batch are packed with the smaller stride: the result
of query 1 lands in row 0, and row 1 is left with the stale content of the buffer. -/
theorem C45_stride_violated :
    ∃ (q : GpuQuery 1 Rat) (out : List (List (Rat × Nat))),
      gpuTopk selTest (-100) 1000 4 (fun _ => (7, 7)) (fun _ => 9) q 2 = .ok out ∧
      q.query.length = 2 ∧
      out = [[(5, 0), (3, 0)], [(7, 7), (7, 7)]] ∧
      (List.range q.items.length).map
        (Spec.queryScore (-100) q.items q.query q.norms q.itemFilter q.queryFilter 0) = [5] ∧
      (List.range q.items.length).map
        (Spec.queryScore (-100) q.items q.query q.norms q.itemFilter q.queryFilter 1) = [3] := by
  refine ⟨⟨[fun _ => 1], [fun _ => 5, fun _ => 3], none, none, none⟩, _, ?_, rfl, rfl, ?_, ?_⟩
  · decide +kernel
  · simp [Spec.queryScore]
  · simp [Spec.queryScore]

/-- ... and with batches of one row, by contrast, the same call returns row-aligned scores: the answer depends
on the memory that happened to be free. -/
theorem C45_memory_violated :
    ∃ (q : GpuQuery 1 Rat) (o1 o2 : List (List (Rat × Nat))),
      gpuTopk selTest (-100) 1000 4 (fun _ => (7, 7)) (fun _ => 9) q 2 = .ok o1 ∧
      gpuTopk selTest (-100) 132 4 (fun _ => (7, 7)) (fun _ => 9) q 2 = .ok o2 ∧
      o1 ≠ o2 ∧ (o1[1]?.bind (·[0]?)) = some (7, 7) ∧ (o2[1]?.bind (·[0]?)) = some (3, 0) := by
  refine ⟨⟨[fun _ => 1], [fun _ => 5, fun _ => 3], none, none, none⟩,
    [[(5, 0), (3, 0)], [(7, 7), (7, 7)]], [[(5, 0), (7, 7)], [(3, 0), (7, 7)]], ?_, ?_, ?_, ?_, ?_⟩
  all_goals decide +kernel

/-- The scores of half precision factors are 4 byte floats written to a buffer of 2 byte elements: the store
leaves the allocation. -/
theorem C45_half_violated (sel : List R → Nat → List (R × Nat)) (low : R) (maxMem : Nat)
    (garbage : Nat → R × Nat) (garbageTemp : Nat → R) (q : GpuQuery f R) (k batch : Nat)
    (hplan : gpuBatchSize maxMem 2 q.query.length q.items.length k = .ok batch)
    (hb : batch ≤ q.query.length) :
    gpuTopk sel low maxMem 2 garbage garbageTemp q k = .error .undefinedBehaviour := by
  obtain ⟨hb1, hC⟩ := C45_positive hplan
  set C := q.items.length with hCd
  have hgem : ∀ (t : List R) (stop : Nat), t.length < (stop - 0) * C →
      writeAll t (gpuGemm q 0 stop) = .error .undefinedBehaviour := by
    intro t stop ht
    have hne : ∀ t', writeAll t (gpuGemm q 0 stop) ≠ .ok t' := by
      intro t' h
      have hp : 0 < stop := by
        rcases Nat.eq_zero_or_pos stop with h0 | h0
        · rw [h0] at ht; simp at ht
        · exact h0
      have hm : ((stop - 1) * C + (C - 1), dot (q.items.getD (C - 1) fun _ => 0)
          (q.query.getD (0 + (stop - 1)) fun _ => 0)) ∈ gpuGemm q 0 stop := by
        simp only [gpuGemm, List.mem_flatMap, List.mem_map, List.mem_range]
        exact ⟨stop - 1, by omega, C - 1, by omega, rfl⟩
      have := writeAll_bounds h _ hm
      have e : stop * C = (stop - 1) * C + C := by
        obtain ⟨s, rfl⟩ : ∃ s, stop = s + 1 := ⟨stop - 1, by omega⟩
        simp [Nat.add_mul]
      simp only at this
      rw [Nat.sub_zero, e] at ht
      omega
    have herr : ∀ (ws : List (Nat × R)) (t : List R) (e : Err), writeAll t ws = .error e →
        e = .undefinedBehaviour := by
      intro ws
      induction ws with
      | nil => intro t e h; cases h
      | cons w ws ih =>
        intro t e h
        rw [writeAll_cons] at h
        unfold writeCell at h
        by_cases hw : w.1 < t.length
        · rw [if_pos hw] at h; exact ih _ _ h
        · rw [if_neg hw] at h; cases h; rfl
    cases h : writeAll t (gpuGemm q 0 stop) with
    | ok t' => exact absurd h (hne t')
    | error e => rw [herr _ _ _ h]
  have hlt : ((List.range (batch * C * 2 / 4)).map garbageTemp).length <
      (min q.query.length (0 + (batch - 1 + 1)) - 0) * C := by
    rw [List.length_map, List.length_range, Nat.sub_zero, Nat.zero_add, Nat.sub_add_cancel hb1,
      Nat.min_eq_right hb]
    have : 0 < batch * C := Nat.mul_pos hb1 hC
    omega
  have hloop : ∀ out, gpuLoop sel low q k (batch - 1) 0
      ((List.range (batch * C * 2 / 4)).map garbageTemp, out) = .error .undefinedBehaviour := by
    intro out
    rw [gpuLoop, if_pos (by omega)]
    simp only [gpuBatch, bind, Except.bind, hgem _ _ hlt]
  rw [hCd] at hloop hplan
  simp only [gpuTopk, bind, Except.bind, hplan, hloop]

example : gpuBatchSize 4000 2 3 3 2 = .ok 3 := by decide +kernel

/-- The subtraction of the output sizes wraps around: `2 ^ 27` results leave no memory, the counter becomes
huge, and the batch is the whole query, whose scores do not fit: an allocation error, although the results and
a row of scores fit in the memory of the pool. -/
theorem C45_plan_violated :
    ∃ maxMem rows items k : Nat, maxMem ≤ 2 ^ 32 ∧ 2 * (rows * k * 4) + items * 4 ≤ maxMem ∧
      gpuBatchSize maxMem 4 rows items k = .error .runtimeError := by
  refine ⟨2 ^ 32, 14000000, 1000, 10, by norm_num, by norm_num, ?_⟩
  decide +kernel

/-- An id of `filter_items` beyond the catalogue is not checked: in the last row of the batch it is a store
outside the buffer, in other rows it removes an item of the next query. -/
theorem C45_filter_violated :
    (∃ q : GpuQuery 1 Rat, q.itemFilter = some [3] ∧ q.items.length = 3 ∧
      gpuTopk selTest (-100) 2000 4 (fun _ => (7, 7)) (fun _ => 9) q 2 = .error .undefinedBehaviour) ∧
    (∃ (q : GpuQuery 1 Rat) (out : List (List (Rat × Nat))),
      q.queryFilter = some [(0, 5)] ∧ q.items.length = 3 ∧
      gpuTopk selTest (-100) 2000 4 (fun _ => (7, 7)) (fun _ => 9) q 2 = .ok out ∧
      out[1]? = some [(2, 1), (1, 0)] ∧
      (List.range q.items.length).map
        (Spec.queryScore (-100) q.items q.query q.norms q.itemFilter q.queryFilter 1) = [1, 2, 3]) := by
  refine ⟨⟨⟨[fun _ => 1, fun _ => 2, fun _ => 3], [fun _ => 1, fun _ => 1], none, some [3], none⟩, rfl, rfl, ?_⟩,
    ⟨⟨[fun _ => 1, fun _ => 2, fun _ => 3], [fun _ => 1, fun _ => 1], none, none, some [(0, 5)]⟩,
      [[(3, 2), (2, 1)], [(2, 1), (1, 0)]], rfl, rfl, ?_, rfl, ?_⟩⟩
  · decide +kernel
  · decide +kernel
  · simp [Spec.queryScore, List.range_succ]

end Implicit
