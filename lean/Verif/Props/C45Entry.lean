import Verif.Props.C45
import Verif.Model.GpuKnnEntry
import Verif.Spec.KnnMemory
import Mathlib.Tactic.Linarith

/-!
# C45, continued: `KnnQuery` from its constructor to the answer, on device memory

`C45_memory_partial`: on matrices stored row by row, `KnnQuery.topk` of the default or a given memory size answers every
query whose results and one row of scores fit, row by row, with the cuBLAS call as written (`C45_flat`).
`C45_blocks`: the plan leaves room for the 256 byte blocks of the pool, but not with less than 32 results
(`C45_blocks_violated`).  `C45_arguments`: which arguments raise.  `C45_pool`: the size of the pool.  `C45_filter_distance`: the score of filtered
items is the lowest float but one; `C45_lowest_violated`: an item that scores the lowest float loses against filtered ones.
-/

set_option linter.unusedSectionVars false

namespace Implicit

variable {R : Type} [LinearOrder R] [Field R] {f : Nat}

/-! ### The pool -/

/-- The pool is a multiple of 256 bytes and holds what was asked for and less than 256 bytes more.  By default it is at most
4 GiB and, but for the padding, at most half of the free memory. -/
theorem C45_pool (free temp : Nat) (ht : temp + 256 ≤ 2 ^ 64) :
    256 ∣ knnPool free temp ∧
    (temp ≠ 0 → temp ≤ knnPool free temp ∧ knnPool free temp < temp + 256) ∧
    (temp = 0 → min (free / 2) (2 ^ 32) ≤ knnPool free temp ∧ knnPool free temp ≤ 2 ^ 32 ∧
      knnPool free temp < free / 2 + 256) := by
  have key : ∀ t : Nat, t + 256 ≤ 2 ^ 64 → ∃ p, (if t % 256 = 0 then t else (t + (256 - t % 256)) % 2 ^ 64) = p ∧
      p % 256 = 0 ∧ t ≤ p ∧ p < t + 256 := by
    intro t h
    refine ⟨_, rfl, ?_⟩
    split <;> omega
  unfold knnPool
  by_cases h0 : temp = 0
  · obtain ⟨p, hp, h1, h2, h3⟩ := key (min (free / 2) 4294967296) (by omega)
    simp only [h0, if_true, hp]
    refine ⟨Nat.dvd_of_mod_eq_zero h1, fun h => absurd rfl h, fun _ => ⟨by omega, by omega, by omega⟩⟩
  · obtain ⟨p, hp, h1, h2, h3⟩ := key temp ht
    simp only [h0, if_false, hp]
    exact ⟨Nat.dvd_of_mod_eq_zero h1, fun _ => ⟨h2, h3⟩, fun h => absurd h (by simp)⟩

example : knnPool 1000 0 = 512 ∧ knnPool 1000 513 = 768 ∧ knnPool (2 ^ 40) 0 = 2 ^ 32 ∧ knnPool 1000 512 = 512 := by
  decide +kernel

/-- The pool hands out blocks of 256 bytes.  With at least 32 results the plan leaves room for that. -/
theorem C45_blocks {maxMem rows items k batch : Nat}
    (hfit : rows * k * 32 + items * 4 ≤ min maxMem (2 ^ 32)) (hres : 32 ≤ rows * k)
    (h : gpuBatchSize maxMem 4 rows items k = .ok batch) : poolUsed 4 rows items k batch ≤ maxMem := by
  obtain ⟨hb1, hi⟩ := C45_positive h
  set P := rows * k with hP
  set M := min maxMem (2 ^ 32) with hM
  have hav : ((((M : Nat) : Int) - rows * k * 4 - rows * k * 4 - rows * k * 8 * 3) % 2 ^ 64).toNat = M - P * 32 := by
    have : (rows : Int) * k = (P : Int) := by rw [hP]; push_cast; rfl
    rw [this]; omega
  have hbd : batch ≤ (M - P * 32) / (4 * items) := by
    have hd1 : 1 ≤ (M - P * 32) / (4 * items) := (Nat.le_div_iff_mul_le (by omega)).mpr (by omega)
    unfold gpuBatchSize at h
    rw [if_neg (by omega), if_neg (by omega)] at h
    simp only [← hM, hav] at h
    split at h
    · cases h
    · cases h; omega
  have hm : batch * items * 4 ≤ M - P * 32 := by
    have := (Nat.le_div_iff_mul_le (by omega)).mp hbd
    calc batch * items * 4 = batch * (4 * items) := by ring
      _ ≤ _ := this
  unfold poolUsed poolBlocks
  rw [← hP]
  omega

example : gpuBatchSize 2048 4 5 30 8 = .ok 5 ∧ poolUsed 4 5 30 8 5 = 1280 := by decide +kernel

/-- With fewer results it does not: one query for the best of 248 items, which needs 1000 bytes, fails in a pool of 1024
bytes. -/
theorem C45_blocks_violated :
    ∃ maxMem rows items k batch : Nat, rows * k * 32 + items * 4 ≤ min maxMem (2 ^ 32) ∧ knnPool 0 maxMem = maxMem ∧
      gpuBatchSize maxMem 4 rows items k = .ok batch ∧ 2 * (rows * k * 4) + batch * items * 4 ≤ maxMem ∧
      maxMem < poolUsed 4 rows items k batch :=
  ⟨1024, 1, 248, 1, 1, by decide +kernel⟩

/-! ### The score of filtered items -/

/-- Filtered items score the second lowest float: the only float below it is `-FLT_MAX`. -/
theorem C45_filter_distance :
    Spec.IsFloat fltFilterDistance ∧ Spec.IsFloat (-floatOfBits fltMaxBits) ∧
    -floatOfBits fltMaxBits < fltFilterDistance ∧
    ∀ x, Spec.IsFloat x → x < fltFilterDistance → x = -floatOfBits fltMaxBits := by
  have h1 : fltFilterDistance = ((-(2 ^ 24 - 2) : Int) : Rat) * 2 ^ (104 : Int) := by decide +kernel
  have h2 : -floatOfBits fltMaxBits = ((-(2 ^ 24 - 1) : Int) : Rat) * 2 ^ (104 : Int) := by decide +kernel
  have hpos : (0 : Rat) < 2 ^ (104 : Int) := zpow_pos (by norm_num) _
  refine ⟨⟨_, _, by decide, by decide, by decide, h1⟩, ⟨_, _, by decide, by decide, by decide, h2⟩, ?_, ?_⟩
  · rw [h1, h2]
    exact mul_lt_mul_of_pos_right (by norm_num) hpos
  · rintro x ⟨m, e, hm, he0, he, rfl⟩ hx
    rw [h1] at hx
    obtain ⟨d, hd⟩ : ∃ d : Nat, e + d = 104 := ⟨(104 - e).toNat, by omega⟩
    have hpe : (0 : Rat) < 2 ^ e := zpow_pos (by norm_num) _
    have hsplit : (2 : Rat) ^ (104 : Int) = 2 ^ e * 2 ^ d := by
      rw [← hd, zpow_add₀ (by norm_num), zpow_natCast]
    rw [hsplit] at hx
    have hx' : (m : Rat) < ((-(2 ^ 24 - 2) : Int) : Rat) * 2 ^ d := by
      have : (m : Rat) * 2 ^ e < (((-(2 ^ 24 - 2) : Int) : Rat) * 2 ^ d) * 2 ^ e := by
        calc (m : Rat) * 2 ^ e < _ := hx
          _ = _ := by ring
      exact lt_of_mul_lt_mul_right this hpe.le
    have hxi : m < -(2 ^ 24 - 2) * 2 ^ d := by exact_mod_cast hx'
    have hml := abs_lt.mp hm
    cases d with
    | zero =>
      have : m = -(2 ^ 24 - 1) := by omega
      have he' : e = 104 := by omega
      rw [h2, this, he']
    | succ d =>
      exfalso
      have : (2 : Int) ≤ 2 ^ (d + 1) := by
        rw [pow_succ]
        have : (1 : Int) ≤ 2 ^ d := one_le_pow₀ (by norm_num)
        omega
      omega

/-! ### The product -/

theorem rowMajor_length (rows : List (Vec f R)) : (Spec.rowMajor rows).length = rows.length * f := by
  unfold Spec.rowMajor
  induction rows with
  | nil => simp
  | cons v rows ih => simp [ih, Nat.add_mul, Nat.add_comm]

theorem rowMajor_get (rows : List (Vec f R)) : ∀ (i : Nat) (l : Nat) (hl : l < f),
    i < rows.length → (Spec.rowMajor rows).getD (l + i * f) 0 = rows.getD i (fun _ => 0) ⟨l, hl⟩ := by
  unfold Spec.rowMajor
  induction rows with
  | nil => intro i l hl h; simp at h
  | cons v rows ih =>
    intro i l hl h
    cases i with
    | zero =>
      simp [List.getElem?_append, hl]
    | succ i =>
      have := ih i l hl (by simpa using h)
      have e : l + (i + 1) * f = (List.ofFn v).length + (l + i * f) := by simp; ring
      rw [e]
      simp only [List.map_cons, List.flatten_cons, List.getD_cons_succ]
      rw [← this]
      simp only [List.getD_eq_getElem?_getD]
      rw [List.getElem?_append_right (by omega)]
      simp

theorem writeAll_error (ws : List (Nat × R)) : ∀ (t : List R) (e : Err), writeAll t ws = .error e →
    e = .undefinedBehaviour := by
  induction ws with
  | nil => intro t e h; cases h
  | cons w ws ih =>
    intro t e h
    rw [writeAll_cons] at h
    unfold writeCell at h
    by_cases hw : w.1 < t.length
    · rw [if_pos hw] at h; exact ih _ _ h
    · rw [if_neg hw] at h; cases h; rfl

/-- The cuBLAS call on column-major matrices, given matrices stored row by row, stores the scores of `query · itemsᵀ` row by
row. -/
theorem C45_gemm (q : GpuQuery f R) {start stop : Nat} (temp : List R) (hf : 0 < f) (hC : 0 < q.items.length)
    (hs : start < stop) (hstop : stop ≤ q.query.length) :
    gemmTN q.items.length (stop - start) f (Spec.rowMajor q.items) f
      ((Spec.rowMajor q.query).drop (start * f)) f temp q.items.length =
    writeAll temp (gpuGemm q start stop) := by
  set C := q.items.length with hCd
  set n := stop - start with hn
  have hn0 : 0 < n := by omega
  have hdecomp : ∀ m g : Nat, 0 < m → (m - 1) * g + g = m * g := by
    intro m g hm
    obtain ⟨m, rfl⟩ : ∃ m', m = m' + 1 := ⟨m - 1, by omega⟩
    simp [Nat.add_mul]
  have hmem : ∀ a, a ∈ (gpuGemm q start stop).map Prod.fst ↔ a < n * C := by
    intro a
    simp only [gpuGemm, List.mem_map, List.mem_flatMap, List.mem_range, ← hCd, ← hn]
    constructor
    · rintro ⟨w, ⟨r, hr, c, hc, rfl⟩, rfl⟩
      exact flat_lt hr hc
    · intro ha
      refine ⟨_, ⟨a / C, (Nat.div_lt_iff_lt_mul hC).mpr ha, a % C, Nat.mod_lt _ hC, rfl⟩, ?_⟩
      exact Nat.div_add_mod' a C
  unfold gemmTN
  rw [if_neg (by omega), if_neg (by omega)]
  have hlA : ¬ (Spec.rowMajor q.items).length < (C - 1) * f + f := by
    rw [rowMajor_length, hdecomp C f hC]; exact lt_irrefl _
  have hlB : ¬ ((Spec.rowMajor q.query).drop (start * f)).length < (n - 1) * f + f := by
    rw [List.length_drop, rowMajor_length, hdecomp n f hn0]
    have : start * f + n * f ≤ q.query.length * f := by
      rw [← Nat.add_mul]; exact Nat.mul_le_mul_right _ (by omega)
    omega
  rw [hdecomp n C hn0]
  by_cases hl : temp.length < n * C
  · rw [if_pos (Or.inr (Or.inr hl))]
    cases h : writeAll temp (gpuGemm q start stop) with
    | error e => rw [writeAll_error _ _ _ h]
    | ok t =>
      exfalso
      obtain ⟨w, hw, hw'⟩ := List.mem_map.mp ((hmem temp.length).mpr hl)
      have := writeAll_bounds h w hw
      omega
  · rw [if_neg (by rintro (h | h | h) <;> contradiction)]
    obtain ⟨t, ht, htl⟩ := writeAll_ok (gpuGemm q start stop) temp (by
      intro w hw
      have := (hmem w.1).mp (List.mem_map_of_mem hw)
      omega)
    rw [ht]
    congr 1
    apply List.ext_getElem?
    intro a
    have hg := writeAll_fun (fun a => dot (q.items.getD (a % C) fun _ => 0)
      (q.query.getD (start + a / C) fun _ => 0)) ht (by
        intro w hw
        simp only [gpuGemm, List.mem_flatMap, List.mem_map, List.mem_range, ← hCd] at hw
        obtain ⟨r, hr, c, hc, rfl⟩ := hw
        simp only [flat_mod hc, flat_div hc]) a
    rw [hg, List.getElem?_mapIdx]
    by_cases ha : a < n * C
    · rw [if_pos ((hmem a).mpr ha)]
      have hr : a / C < n := (Nat.div_lt_iff_lt_mul hC).mpr ha
      have hc : a % C < C := Nat.mod_lt _ hC
      rw [List.getElem?_eq_getElem (by omega)]
      simp only [Option.map_some, hc, hr, and_self, if_true, Option.some.injEq, dot]
      rw [← List.sum_ofFn]
      congr 1
      apply List.ext_getElem (by simp)
      intro l h1 h2
      have hlf : l < f := by simpa using h1
      simp only [List.getElem_map, List.getElem_range, List.getElem_ofFn]
      rw [rowMajor_get q.items _ l hlf hc]
      congr 1
      have := rowMajor_get q.query (start + a / C) l hlf (by omega)
      rw [← this]
      simp only [List.getD_eq_getElem?_getD, List.getElem?_drop]
      congr 2
      ring
    · rw [if_neg (fun h => ha ((hmem a).mp h))]
      have hr : ¬ a / C < n := by
        intro h; exact ha ((Nat.div_lt_iff_lt_mul hC).mp h)
      simp [hr]

/-! ### The whole query -/

/-- `M` stores `rows` row by row, in single precision. -/
structure Spec.StoresRows (M : KnnMatrix R) (rows : List (Vec f R)) : Prop where
  rows_eq : M.rows = rows.length
  cols_eq : M.cols = f
  itemsize_eq : M.itemsize = 4
  data_eq : M.data = Spec.rowMajor rows

theorem devBatch_eq (sel : List R → Nat → List (R × Nat)) (low : R) {items query : KnnMatrix R} (q : GpuQuery f R)
    (hI : Spec.StoresRows items q.items) (hQ : Spec.StoresRows query q.query) (hf : 0 < f) (hC : 0 < q.items.length)
    {k start stop : Nat} (hs : start < stop) (hstop : stop ≤ q.query.length) (st : List R × List (R × Nat)) :
    devBatch sel low items query (devSizes items query q.norms q.itemFilter q.queryFilter) k start stop st =
      gpuBatch sel low q k start stop st := by
  have hl : (devSizes items query q.norms q.itemFilter q.queryFilter).items.length = q.items.length := by
    simp [devSizes, hI.rows_eq]
  have h1 : ∀ t, gpuNormalise (devSizes items query q.norms q.itemFilter q.queryFilter) start stop t =
      gpuNormalise q start stop t := by
    intro t; unfold gpuNormalise; rw [hl]; rfl
  have h2 : gpuItemFilter low (devSizes items query q.norms q.itemFilter q.queryFilter) start stop =
      gpuItemFilter low q start stop := by unfold gpuItemFilter; rw [hl]; rfl
  have h3 : gpuQueryFilter low (devSizes items query q.norms q.itemFilter q.queryFilter) start stop =
      gpuQueryFilter low q start stop := by unfold gpuQueryFilter; rw [hl]; rfl
  have h4 : ∀ t, gpuSelect sel (devSizes items query q.norms q.itemFilter q.queryFilter) k start stop t =
      gpuSelect sel q k start stop t := by
    intro t; unfold gpuSelect; rw [hl]
  unfold devBatch gpuBatch
  rw [hI.rows_eq, hI.cols_eq, hQ.cols_eq, hI.data_eq, hQ.data_eq, C45_gemm q st.1 hf hC hs hstop]
  simp only [h1, h2, h3, h4]

theorem devLoop_eq (sel : List R → Nat → List (R × Nat)) (low : R) {items query : KnnMatrix R} (q : GpuQuery f R)
    (hI : Spec.StoresRows items q.items) (hQ : Spec.StoresRows query q.query) (hf : 0 < f) (hC : 0 < q.items.length)
    (k b m : Nat) : ∀ (start : Nat) (st : List R × List (R × Nat)), q.query.length - start ≤ m →
    devLoop sel low items query (devSizes items query q.norms q.itemFilter q.queryFilter) k b start st =
      gpuLoop sel low q k b start st := by
  induction m with
  | zero =>
    intro start st h
    rw [devLoop, gpuLoop, if_neg (by rw [hQ.rows_eq]; omega), if_neg (by omega)]
  | succ m ih =>
    intro start st h
    rw [devLoop, gpuLoop, hQ.rows_eq]
    by_cases hlt : start < q.query.length
    · rw [if_pos hlt, if_pos hlt, devBatch_eq sel low q hI hQ hf hC (by omega) (by omega)]
      congr 1
      funext st'
      exact ih _ _ (by omega)
    · rw [if_neg hlt, if_neg hlt]

/-- On matrices stored row by row, the flat memory version is the version on rows. -/
theorem C45_flat (sel : List R → Nat → List (R × Nat)) (low : R) (maxMem : Nat) (garbage : Nat → R × Nat)
    (garbageTemp : Nat → R) {items query : KnnMatrix R} (q : GpuQuery f R) (k : Nat)
    (hI : Spec.StoresRows items q.items) (hQ : Spec.StoresRows query q.query) (hf : 0 < f) :
    knnTopk sel low maxMem garbage garbageTemp items query q.norms q.itemFilter q.queryFilter k =
      gpuTopk sel low maxMem 4 garbage garbageTemp q k := by
  unfold knnTopk
  rw [if_neg (by rw [hI.cols_eq, hQ.cols_eq]; simp), if_neg (by rw [hI.itemsize_eq, hQ.itemsize_eq]; simp),
    if_pos (Or.inl hI.itemsize_eq)]
  unfold knnTopkImpl gpuTopk
  rw [hI.rows_eq, hQ.rows_eq, hI.itemsize_eq]
  cases hb : gpuBatchSize maxMem 4 q.query.length q.items.length k with
  | error e => rfl
  | ok batch =>
    have hC := (C45_positive hb).2
    simp only [bind, Except.bind]
    rw [devLoop_eq sel low q hI hQ hf hC k (batch - 1) q.query.length 0 _ (by omega)]

/-- From the constructor to the answer: for every amount of free memory and requested size, if the results (32 bytes each)
and one row of scores fit in the memory, the query on device matrices succeeds and row `r` of the answer is a selection of
the `k` best items for query `r`.  Missing: `k` above the number of items, half precision (see `C45_rows_partial`). -/
theorem C45_memory_partial (sel : List R → Nat → List (R × Nat)) (low : R) (free temp : Nat)
    (garbage : Nat → R × Nat) (garbageTemp : Nat → R) {items query : KnnMatrix R} (q : GpuQuery f R) (k : Nat)
    (hI : Spec.StoresRows items q.items) (hQ : Spec.StoresRows query q.query) (hf : 0 < f)
    (hsel : ∀ (l : List R) (k : Nat), k ≤ l.length → Spec.IsSelection k l (sel l k))
    (ht : temp + 256 ≤ 2 ^ 64) (hi0 : 0 < q.items.length)
    (hfit : q.query.length * k * 32 + q.items.length * 4 ≤
      min (if temp = 0 then free / 2 else temp) (2 ^ 32))
    (hk : k ≤ q.items.length)
    (hi : ∀ l ∈ q.itemFilter, ∀ c ∈ l, c < q.items.length)
    (hq : ∀ l ∈ q.queryFilter, ∀ e ∈ l, e.2 < q.items.length) :
    ∃ out, knnTopk sel low (knnPool free temp) garbage garbageTemp items query q.norms q.itemFilter q.queryFilter k =
        .ok out ∧ out.length = q.query.length ∧
      ∀ (r : Nat) (row : List (R × Nat)), out[r]? = some row →
        Spec.IsSelection k ((List.range q.items.length).map
          (Spec.queryScore low q.items q.query q.norms q.itemFilter q.queryFilter r)) row := by
  have hp := C45_pool free temp ht
  have hle : min (if temp = 0 then free / 2 else temp) (2 ^ 32) ≤ min (knnPool free temp) (2 ^ 32) := by
    by_cases h0 : temp = 0
    · have := (hp.2.2 h0).1
      rw [if_pos h0]; omega
    · have := (hp.2.1 h0).1
      rw [if_neg h0]; omega
  obtain ⟨batch, hb, -⟩ := C45_plan hi0 (le_trans hfit hle)
  rw [C45_flat sel low _ garbage garbageTemp q k hI hQ hf]
  exact C45_rows_partial sel low _ garbage garbageTemp q k batch hsel hb hk hi hq

/-- Matrices with different numbers of columns or types, or a type that is neither single nor half precision, raise
`ValueError` before anything is computed. -/
theorem C45_arguments (sel : List R → Nat → List (R × Nat)) (low : R) (maxMem : Nat) (garbage : Nat → R × Nat)
    (garbageTemp : Nat → R) (items query : KnnMatrix R) (norms : Option (List R)) (itemFilter : Option (List Nat))
    (queryFilter : Option (List (Nat × Nat))) (k : Nat)
    (h : items.cols ≠ query.cols ∨ items.itemsize ≠ query.itemsize ∨ (items.itemsize ≠ 4 ∧ items.itemsize ≠ 2)) :
    knnTopk sel low maxMem garbage garbageTemp items query norms itemFilter queryFilter k = .error .valueError := by
  unfold knnTopk
  split
  · rfl
  · split
    · rfl
    · rw [if_neg]
      rintro (h' | h') <;> rcases h with h | h | h <;> first | exact h (by omega) | omega

/-- Two queries against three items in a pool of 256 bytes: `[1, 2]` scores `1, 2, 3`. -/
example : Spec.StoresRows (f := 2) (⟨3, 2, 4, [1, 0, 0, 1, 1, 1]⟩ : KnnMatrix Rat)
      [![1, 0], ![0, 1], ![1, 1]] ∧
    (knnTopk selTest (-100) (knnPool 0 1) (fun _ => (7, 7)) (fun _ => 9) (⟨3, 2, 4, [1, 0, 0, 1, 1, 1]⟩ : KnnMatrix Rat)
      ⟨2, 2, 4, [1, 2, 3, -4]⟩ none none none 2).toOption = some [[(3, 2), (2, 1)], [(3, 0), (-1, 2)]] ∧
    (knnTopk selTest (-100) (knnPool 0 1) (fun _ => (7, 7)) (fun _ => 9) (⟨3, 2, 4, [1, 0, 0, 1, 1, 1]⟩ : KnnMatrix Rat)
      ⟨2, 2, 2, [1, 2, 3, -4]⟩ none none none 2).toOption = none := by
  refine ⟨⟨rfl, rfl, rfl, by decide +kernel⟩, ?_, ?_⟩ <;> decide +kernel

/-- An item that is not filtered and scores `-FLT_MAX` loses against a filtered one: the answer is the filtered item. -/
theorem C45_lowest_violated :
    ∃ (q : GpuQuery 1 Rat) (out : List (List (Rat × Nat))), q.itemFilter = some [0] ∧ q.items.length = 2 ∧
      (∀ v ∈ q.items ++ q.query, Spec.IsFloat (v 0)) ∧
      gpuTopk selTest fltFilterDistance 1000 4 (fun _ => (7, 7)) (fun _ => 9) q 1 = .ok out ∧
      out.map (List.map Prod.snd) = [[0]] := by
  refine ⟨⟨[fun _ => 1, fun _ => -floatOfBits fltMaxBits], [fun _ => 1], none, some [0], none⟩,
    [[(fltFilterDistance, 0)]], rfl, rfl, ?_, ?_, rfl⟩
  · have h1 : Spec.IsFloat 1 := ⟨1, 0, by decide, by decide, by decide, by norm_num⟩
    intro v hv
    simp only [List.cons_append, List.nil_append, List.mem_cons, List.not_mem_nil, or_false] at hv
    rcases hv with rfl | rfl | rfl
    · exact h1
    · exact C45_filter_distance.2.1
    · exact h1
  · decide +kernel

end Implicit
