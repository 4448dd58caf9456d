import Verif.Lemmas.MachineInts
import Mathlib.Tactic.NormNum
import Mathlib.Tactic.ByContra
/-!
# C61 — positions computed in machine integers are the intended ones
-/

namespace Implicit

open CInt

theorem selectRead_eq {cols row col : Nat} (hc : cols < 2 ^ 31) (hr : row < 2 ^ 31) (hcol : col < cols) :
    selectRead cols row col = if row * cols + col < 2 ^ 31 then some ((row * cols + col : Nat) : Int) else none := by
  unfold selectRead
  rw [mul_int (by omega) (by omega) (by omega) (by omega)]
  by_cases h1 : (row : Int) * cols < 2 ^ 31
  · rw [if_pos h1]
    simp only [Option.bind_eq_bind, Option.bind_some]
    have h0 : (0 : Int) ≤ (row : Int) * cols := by positivity
    rw [add_int h0 h1 (by omega) (by omega)]
    by_cases h2 : row * cols + col < 2 ^ 31
    · have h3 : (row : Int) * cols + col < 2 ^ 31 := by exact_mod_cast h2
      rw [if_pos h2, if_pos h3]
      simp [int]
    · have h3 : ¬ (row : Int) * cols + col < 2 ^ 31 := by exact_mod_cast h2
      rw [if_neg h2, if_neg h3]
      rfl
  · rw [if_neg h1, if_neg]
    · rfl
    · intro h2
      have h3 : (row : Int) * cols + col < 2 ^ 31 := by exact_mod_cast h2
      omega

theorem product_eq {a b : Nat} (ha : a < 2 ^ 31) (hb : b < 2 ^ 31) :
    mul (int a) (int b) = if a * b < 2 ^ 31 then some (int ((a * b : Nat) : Int)) else none := by
  rw [mul_int (by omega) (by omega) (by omega) (by omega)]
  by_cases h : a * b < 2 ^ 31
  · have h3 : (a : Int) * b < 2 ^ 31 := by exact_mod_cast h
    rw [if_pos h, if_pos h3]
    norm_num
  · have h3 : ¬ (a : Int) * b < 2 ^ 31 := by exact_mod_cast h
    rw [if_neg h, if_neg h3]

theorem selectWrite_eq {k row i : Nat} (hk : k < 2 ^ 31) (hr : row < 2 ^ 31) (hi : i < k) :
    selectWrite k row i = if row * k < 2 ^ 31 then some ((row * k + i : Nat) : Int) else none := by
  unfold selectWrite
  rw [product_eq hr hk]
  by_cases h : row * k < 2 ^ 31
  · rw [if_pos h, if_pos h]
    simp only [Option.bind_eq_bind, Option.bind_some]
    rw [add_int_size (by omega) (by omega) (by omega)]
    simp [size]
  · rw [if_neg h, if_neg h]
    rfl

theorem topkBounds_eq {q batch : Nat} (hq : q < 2 ^ 31) (hb : 100 * batch < q) :
    topkBounds q batch = if 100 < q → 100 * batch + 100 < 2 ^ 31 then some (((100 * batch : Nat) : Int),
      ((min (100 * batch + 100) q : Nat) : Int)) else none := by
  unfold topkBounds
  by_cases h : q ≤ 100
  · rw [if_pos h, if_pos (by omega)]
    have : batch = 0 := by omega
    subst this
    simp
    omega
  · rw [if_neg h]
    have e : mul (int batch) (int 100) = some (int ((100 * batch : Nat) : Int)) := by
      have := product_eq (a := batch) (b := 100) (by omega) (by omega)
      rw [if_pos (by omega), Nat.mul_comm] at this
      exact this
    rw [e]
    simp only [Option.bind_eq_bind, Option.bind_some]
    rw [add_int (by omega) (by omega) (by omega) (by omega)]
    by_cases h2 : 100 * batch + 100 < 2 ^ 31
    · rw [if_pos (by omega), if_pos (by omega)]
      simp [int]
    · rw [if_neg (by omega), if_neg (by omega)]
      rfl

/-- The positions of a call of `topk` are the intended ones: scores are read in rows of `items`, results are written in rows
of `k`, batch after batch. -/
def Spec.TopkExact (q n k : Nat) : Prop :=
  ∀ batch row, row < 100 → 100 * batch + row < q →
    (∀ col < n, selectRead n row col = some ((row * n + col : Nat) : Int)) ∧
    topkBounds q batch = some (((100 * batch : Nat) : Int), ((min (100 * batch + 100) q : Nat) : Int)) ∧
    ∀ i < k, topkWrite q k batch row i = some (((100 * batch + row) * k + i : Nat) : Int)

/-- **C61** (CPU top-k): exactly for which sizes `topk` reads and writes the intended positions. -/
theorem C61_topk (q n k : Nat) (hq : 0 < q) (hn : 0 < n) (hk : 0 < k) (hq' : q < 2 ^ 31) (hn' : n < 2 ^ 31)
    (hk' : k < 2 ^ 31) :
    Spec.TopkExact q n k ↔ min q 100 * n ≤ 2 ^ 31 ∧ (min q 100 - 1) * k < 2 ^ 31 ∧
      100 * ((q - 1) / 100) * k < 2 ^ 31 ∧ (100 < q → 100 * ((q - 1) / 100) + 100 < 2 ^ 31) := by
  have hwrite : ∀ batch row i, row < 100 → 100 * batch + row < q → i < k → topkWrite q k batch row i =
      if (100 < q → 100 * batch + 100 < 2 ^ 31) ∧ 100 * batch * k < 2 ^ 31 ∧ row * k < 2 ^ 31 then
        some (((100 * batch + row) * k + i : Nat) : Int) else none := by
    intro batch row i hr hb hi
    unfold topkWrite
    rw [topkBounds_eq hq' (by omega)]
    by_cases h1 : 100 < q → 100 * batch + 100 < 2 ^ 31
    · rw [if_pos h1]
      simp only [Option.bind_eq_bind, Option.bind_some]
      rw [product_eq (by omega) hk', selectWrite_eq hk' (by omega) hi]
      by_cases h2 : 100 * batch * k < 2 ^ 31
      · rw [if_pos h2]
        simp only [Option.bind_some]
        by_cases h3 : row * k < 2 ^ 31
        · rw [if_pos h3, if_pos ⟨h1, h2, h3⟩]
          simp only [Option.bind_some, int, Option.pure_def, Option.some.injEq]
          push_cast
          ring
        · rw [if_neg h3, if_neg (by tauto)]
          rfl
      · have hno : ¬ ((100 < q → 100 * batch + 100 < 2 ^ 31) ∧ 100 * batch * k < 2 ^ 31 ∧ row * k < 2 ^ 31) := by tauto
        rw [if_neg h2, if_neg hno]
        rfl
    · rw [if_neg h1, if_neg (by tauto)]
      rfl
  constructor
  · intro h
    obtain ⟨r1, -, w1⟩ := h 0 (min q 100 - 1) (by omega) (by omega)
    obtain ⟨-, b2, w2⟩ := h ((q - 1) / 100) 0 (by omega) (by omega)
    have r := r1 (n - 1) (by omega)
    rw [selectRead_eq hn' (by omega) (by omega)] at r
    have w := w1 0 hk
    rw [hwrite _ _ _ (by omega) (by omega) hk] at w
    have w' := w2 0 hk
    rw [hwrite _ _ _ (by omega) (by omega) hk] at w'
    split_ifs at r w w' with a1 a2 a3
    refine ⟨?_, a2.2.2, a3.2.1, a3.1⟩
    obtain ⟨m, hm⟩ : ∃ m, min q 100 = m + 1 := ⟨min q 100 - 1, by omega⟩
    rw [hm] at a1 ⊢
    rw [Nat.add_sub_cancel] at a1
    rw [Nat.add_mul, Nat.one_mul]
    omega
  · rintro ⟨h1, h2, h3, h4⟩ batch row hr hb
    have hrow : row + 1 ≤ min q 100 := by omega
    have hbatch : batch ≤ (q - 1) / 100 := by omega
    have m1 : (row + 1) * n ≤ min q 100 * n := Nat.mul_le_mul_right n hrow
    have m2 : row * k ≤ (min q 100 - 1) * k := Nat.mul_le_mul_right k (by omega)
    have m3 : 100 * batch * k ≤ 100 * ((q - 1) / 100) * k := Nat.mul_le_mul_right k (by omega)
    rw [Nat.add_mul, Nat.one_mul] at m1
    refine ⟨fun col hcol => ?_, ?_, fun i hi => ?_⟩
    · rw [selectRead_eq hn' (by omega) hcol, if_pos (by omega)]
    · rw [topkBounds_eq hq' (by omega), if_pos (by intro h; have := h4 h; omega)]
    · rw [hwrite batch row i hr hb hi, if_pos ⟨fun h => by have := h4 h; omega, by omega, by omega⟩]

/-- **C61 violated** (CPU top-k): recommending for 100 users from 25 million items, or 110 items to each of 20 million users,
computes positions with undefined signed overflow. -/
theorem C61_topk_violated : ¬ Spec.TopkExact 100 25000000 10 ∧ ¬ Spec.TopkExact 20000000 1000 110 := by
  constructor
  · rw [C61_topk _ _ _ (by norm_num) (by norm_num) (by norm_num) (by norm_num) (by norm_num) (by norm_num)]
    norm_num
  · rw [C61_topk _ _ _ (by norm_num) (by norm_num) (by norm_num) (by norm_num) (by norm_num) (by norm_num)]
    norm_num

/-- A million users, a million items, 100 results: exact.  The last result of the last user goes to the last position. -/
example : Spec.TopkExact 1000000 1000000 100 ∧ topkWrite 1000000 100 9999 99 99 = some 99999999 := by
  have h : Spec.TopkExact 1000000 1000000 100 :=
    (C61_topk _ _ _ (by norm_num) (by norm_num) (by norm_num) (by norm_num) (by norm_num) (by norm_num)).mpr (by norm_num)
  refine ⟨h, ?_⟩
  have := (h 9999 99 (by norm_num) (by norm_num)).2.2 99 (by norm_num)
  simpa using this

/-! ## All pairs of items -/

theorem knnSlots_exact (length : Int) : ∀ (c : Nat) (a : Nat), a + c < 2 ^ 31 →
    knnSlots length c (int a) = some ((List.range c).map fun j => ((a + j : Nat) : Int)) := by
  intro c
  induction c with
  | zero => intro a _; rfl
  | succ c ih =>
    intro a h
    have e : knnSlots length (c + 1) (int a) = (add (int a) (int 1)).bind fun next =>
        (knnSlots length c (assign .int next)).bind fun rest => some (viewPosition length (int a) :: rest) := rfl
    have e2 : assign .int (int ((a : Int) + 1)) = int ((a + 1 : Nat) : Int) := by
      have := convert_int (x := (a : Int) + 1) (by omega) (by omega)
      simp only [assign, int, CInt.mk.injEq, true_and]
      rw [this]
      norm_num
    rw [e, add_int (by omega) (by omega) (by omega) (by omega), if_pos (by omega), Option.bind_some, e2,
      ih (a + 1) (by omega), Option.bind_some, List.range_succ_eq_map, List.map_cons, List.map_map]
    have e3 : viewPosition length (int a) = ((a + 0 : Nat) : Int) := by
      unfold viewPosition
      rw [if_neg (by simp only [int]; omega)]
      simp [int]
    rw [e3]
    congr 2
    apply List.map_congr_left
    intro j _
    simp only [Function.comp_apply]
    push_cast
    ring

theorem knnSlots_overflow (length : Int) : ∀ (c : Nat) (a : Nat), a < 2 ^ 31 → 2 ^ 31 ≤ a + c →
    knnSlots length c (int a) = none := by
  intro c
  induction c with
  | zero => intro a _ _; omega
  | succ c ih =>
    intro a h h'
    have e : knnSlots length (c + 1) (int a) = (add (int a) (int 1)).bind fun next =>
        (knnSlots length c (assign .int next)).bind fun rest => some (viewPosition length (int a) :: rest) := rfl
    rw [e, add_int (by omega) (by omega) (by omega) (by omega)]
    by_cases h2 : (a : Int) + 1 < 2 ^ 31
    · have e2 : assign .int (int ((a : Int) + 1)) = int ((a + 1 : Nat) : Int) := by
        have := convert_int (x := (a : Int) + 1) (by omega) (by omega)
        simp only [assign, int, CInt.mk.injEq, true_and]
        rw [this]
        norm_num
      rw [if_pos h2, Option.bind_some, e2, ih (a + 1) (by omega) (by omega)]
      rfl
    · rw [if_neg h2]
      rfl

/-- The positions of `all_pairs_knn` are the intended ones: the buffers have `K` places for every item, and the results of
item `i` go to the places from `K * i` on. -/
def Spec.KnnExact (n K : Nat) : Prop :=
  knnLength n K = some ((n * K : Nat) : Int) ∧
  ∀ i < n, ∀ c ≤ min K n, knnPositions n K i c = some ((List.range c).map fun j => ((K * i + j : Nat) : Int))

theorem knnLength_eq {n K : Nat} (hn : n < 2 ^ 31) (hK : K < 2 ^ 32) :
    knnLength n K = some (((n * K % 2 ^ 32 : Nat)) : Int) := by
  unfold knnLength
  rw [mul_int_uint (by omega) (by omega) (by omega) (by omega)]
  simp [uint]

theorem knnFirst_eq {K i : Nat} (hi : i < 2 ^ 31) (hK : K < 2 ^ 32) :
    knnFirst K i = some (int (if K * i % 2 ^ 32 < 2 ^ 31 then ((K * i % 2 ^ 32 : Nat) : Int)
      else ((K * i % 2 ^ 32 : Nat) : Int) - 2 ^ 32)) := by
  unfold knnFirst
  rw [mul_uint_int (by omega) (by omega) (by omega) (by omega)]
  simp only [Option.bind_eq_bind, Option.bind_some, Option.pure_def, assign, uint, int, Option.some.injEq, CInt.mk.injEq,
    true_and]
  have e : (K : Int) * i % 2 ^ 32 = ((K * i % 2 ^ 32 : Nat) : Int) := by norm_num
  rw [e]
  obtain ⟨x, hx⟩ : ∃ x, x = K * i % 2 ^ 32 := ⟨_, rfl⟩
  rw [← hx]
  have : x < 2 ^ 32 := by rw [hx]; exact Nat.mod_lt _ (by norm_num)
  unfold CTy.convert
  simp only [CTy.modulus, CTy.signed, true_and]
  split_ifs <;> omega

/-- **C61** (item-item models): exactly for which sizes `all_pairs_knn` writes the intended positions. -/
theorem C61_knn (n K : Nat) (hn : 0 < n) (hK : 0 < K) (hn' : n < 2 ^ 31) (hK' : K < 2 ^ 32) :
    Spec.KnnExact n K ↔ K * (n - 1) + min K n < 2 ^ 31 := by
  constructor
  · rintro ⟨-, h⟩
    have h := h (n - 1) (by omega) (min K n) le_rfl
    unfold knnPositions at h
    rw [knnLength_eq hn' hK', knnFirst_eq (by omega) hK'] at h
    simp only [Option.bind_eq_bind, Option.bind_some] at h
    obtain ⟨c, hc⟩ : ∃ c, min K n = c + 1 := ⟨min K n - 1, by omega⟩
    obtain ⟨m, hm⟩ : ∃ m, m = K * (n - 1) := ⟨_, rfl⟩
    obtain ⟨L, hL⟩ : ∃ L, L = n * K % 2 ^ 32 := ⟨_, rfl⟩
    have hL' : L < 2 ^ 32 := by rw [hL]; exact Nat.mod_lt _ (by norm_num)
    rw [← hm, ← hL, hc] at h
    rw [← hm, hc]
    have hm' : m < 2 ^ 31 := by
      obtain ⟨x, hx⟩ : ∃ x, x = (if m % 2 ^ 32 < 2 ^ 31 then ((m % 2 ^ 32 : Nat) : Int)
        else ((m % 2 ^ 32 : Nat) : Int) - 2 ^ 32) := ⟨_, rfl⟩
      rw [← hx] at h
      have e : knnSlots (L : Int) (c + 1) (int x) = (add (int x) (int 1)).bind fun next =>
        (knnSlots L c (assign .int next)).bind fun rest => some (viewPosition L (int x) :: rest) := rfl
      rw [e] at h
      cases ha : add (int x) (int 1) with
      | none => rw [ha] at h; cases h
      | some next =>
        rw [ha, Option.bind_some] at h
        cases hb : knnSlots L c (assign .int next) with
        | none => rw [hb] at h; cases h
        | some rest =>
          rw [hb, Option.bind_some, List.range_succ_eq_map, List.map_cons, Option.some.injEq, List.cons.injEq] at h
          have h := h.1
          unfold viewPosition at h
          simp only [int] at h
          split_ifs at h hx <;> omega
    by_contra hlt
    have hx : m % 2 ^ 32 = m := Nat.mod_eq_of_lt (by omega)
    rw [hx, if_pos hm', knnSlots_overflow _ _ _ hm' (by omega)] at h
    cases h
  · intro h
    obtain ⟨m, rfl⟩ : ∃ m, n = m + 1 := ⟨n - 1, by omega⟩
    rw [Nat.add_sub_cancel] at h
    have hlen : (m + 1) * K < 2 ^ 32 := by
      rw [Nat.add_mul, Nat.one_mul, Nat.mul_comm]
      rcases Nat.eq_zero_or_pos m with rfl | hm
      · omega
      · have : K ≤ K * m := Nat.le_mul_of_pos_right K hm
        omega
    refine ⟨?_, fun i hi c hc => ?_⟩
    · rw [knnLength_eq hn' hK', Nat.mod_eq_of_lt hlen]
    · have hi' : K * i ≤ K * m := Nat.mul_le_mul_left K (by omega)
      unfold knnPositions
      rw [knnLength_eq hn' hK', knnFirst_eq (by omega) hK']
      simp only [Option.bind_eq_bind, Option.bind_some]
      rw [Nat.mod_eq_of_lt (a := K * i) (by omega), if_pos (by omega)]
      exact knnSlots_exact _ _ _ (by omega)

/-- **C61 violated** (item-item models): with 25 million items and `K = 100`, item 24,900,000 writes its first result into
the place of another item; with 50 million items the buffers are shorter than the positions written. -/
theorem C61_knn_violated :
    (¬ Spec.KnnExact 25000000 100 ∧ knnLength 25000000 100 = some 2500000000 ∧
      knnPositions 25000000 100 24900000 1 = some [-1804967296 + 2500000000] ∧
      knnPositions 25000000 100 6950327 5 = some [695032700, 695032701, 695032702, 695032703, 695032704]) ∧
    (knnLength 50000000 100 = some 705032704 ∧ knnPositions 50000000 100 10000000 1 = some [1000000000]) := by
  refine ⟨⟨?_, by decide +kernel, by decide +kernel, by decide +kernel⟩, by decide +kernel, by decide +kernel⟩
  rw [C61_knn _ _ (by norm_num) (by norm_num) (by norm_num) (by norm_num)]
  norm_num

/-- Ten million items with 200 neighbours each: exact. -/
example : Spec.KnnExact 10000000 200 ∧ knnPositions 10000000 200 9999999 2 = some [1999999800, 1999999801] :=
  ⟨(C61_knn _ _ (by norm_num) (by norm_num) (by norm_num) (by norm_num)).mpr (by norm_num), by decide +kernel⟩

/-! ## CPU training -/

/-- **C61** (CPU ALS): the blocks of the normal matrix are addressed exactly if and only if it has at most `2^31` places before
its last row. -/
theorem C61_als (factors : Nat) (h0 : 0 < factors) (h : factors < 2 ^ 31) :
    (∀ j < factors, alsOffset factors j = some ((j * factors : Nat) : Int)) ↔ (factors - 1) * factors < 2 ^ 31 := by
  have e : ∀ j < factors, alsOffset factors j = if j * factors < 2 ^ 31 then some ((j * factors : Nat) : Int) else none := by
    intro j hj
    unfold alsOffset
    rw [product_eq (by omega) h]
    split_ifs <;> rfl
  constructor
  · intro hall
    have := hall (factors - 1) (by omega)
    rw [e _ (by omega)] at this
    split_ifs at this with h1
    exact h1
  · intro h1 j hj
    have : j * factors ≤ (factors - 1) * factors := Nat.mul_le_mul_right _ (by omega)
    rw [e j hj, if_pos (by omega)]

example : alsOffset 1000 999 = some 999000 := by decide +kernel

/-- **C61** (logistic factorization): the number of negative samples of a user is the product if and only if that is below
`2^31`. -/
theorem C61_lmf (seen neg : Nat) (h : seen < 2 ^ 31) (h' : neg < 2 ^ 31) :
    lmfSamples seen neg = some ((seen * neg : Nat) : Int) ↔ seen * neg < 2 ^ 31 := by
  unfold lmfSamples
  rw [product_eq h h']
  by_cases h1 : seen * neg < 2 ^ 31
  · rw [if_pos h1]
    exact ⟨fun _ => h1, fun _ => rfl⟩
  · rw [if_neg h1]
    exact ⟨fun h => (by cases h), fun h => absurd h h1⟩

example : lmfSamples 50000 30 = some 1500000 := by decide +kernel

/-! ## GPU kernels -/

theorem gpuAlsUser_eq {f u : Nat} (t : Nat) (hf : f < 2 ^ 31) (hu : u < 2 ^ 31) :
    gpuAlsUser f u t = if u * f < 2 ^ 31 then some ((u * f + t : Nat) : Int) else none := by
  unfold gpuAlsUser
  rw [product_eq hu hf]
  split_ifs <;> simp [int]

theorem gpuAlsItem_eq {f u t : Nat} (hf : f < 2 ^ 31) (hu : u < 2 ^ 31) (ht : t < 2 ^ 31) :
    gpuAlsItem f u t = if u * f < 2 ^ 31 then some ((u * f + t : Nat) : Int) else none := by
  unfold gpuAlsItem
  rw [product_eq hu hf]
  by_cases h : u * f < 2 ^ 31
  · rw [if_pos h, if_pos h]
    simp only [Option.bind_eq_bind, Option.bind_some]
    rw [add_int_uint (by omega) (by omega) (by omega)]
    simp [uint]
  · rw [if_neg h, if_neg h]
    rfl

/-- **C61** (GPU ALS): exactly for which sizes the kernel addresses the factor rows it is meant to. -/
theorem C61_gpu_als (users items f : Nat) (hu : 0 < users) (hi : 0 < items) (hf : 0 < f) (hu' : users < 2 ^ 31)
    (hi' : items < 2 ^ 31) (hf' : f < 2 ^ 31) :
    ((∀ u < users, ∀ t < f, gpuAlsUser f u t = some ((u * f + t : Nat) : Int)) ∧
      ∀ i < items, ∀ t < f, gpuAlsItem f i t = some ((i * f + t : Nat) : Int)) ↔
    (users - 1) * f < 2 ^ 31 ∧ (items - 1) * f < 2 ^ 31 := by
  constructor
  · rintro ⟨h1, h2⟩
    have h1 := h1 (users - 1) (by omega) 0 hf
    have h2 := h2 (items - 1) (by omega) 0 hf
    rw [gpuAlsUser_eq _ hf' (by omega)] at h1
    rw [gpuAlsItem_eq hf' (by omega) (by omega)] at h2
    split_ifs at h1 h2 with a b
    exact ⟨a, b⟩
  · rintro ⟨h1, h2⟩
    refine ⟨fun u hu t ht => ?_, fun i hi t ht => ?_⟩
    · have : u * f ≤ (users - 1) * f := Nat.mul_le_mul_right _ (by omega)
      rw [gpuAlsUser_eq _ hf' (by omega), if_pos (by omega)]
    · have : i * f ≤ (items - 1) * f := Nat.mul_le_mul_right _ (by omega)
      rw [gpuAlsItem_eq hf' (by omega) (by omega), if_pos (by omega)]

/-- **C61 violated** (GPU ALS): 20 million users with 128 factors (10 GB, within the memory of current devices) overflow; the
BPR kernel and the norms address the same matrix exactly. -/
theorem C61_gpu_als_violated : gpuAlsUser 128 19999999 5 = none ∧ gpuAlsItem 128 19999999 5 = none ∧
    gpuBprUser 128 19999999 5 = some 2559999877 ∧ gpuNormsRead 128 19999999 5 = some 2559999877 := by
  decide +kernel

example : gpuAlsUser 128 1000000 5 = some 128000005 ∧ gpuAlsItem 128 1000000 5 = some 128000005 := by decide +kernel

/-- **C61** (GPU BPR and norms): the factor rows are addressed exactly, for every matrix that fits in the address space. -/
theorem C61_gpu_rows (rows cols : Nat) (hr : rows < 2 ^ 31) (h : rows * cols < 2 ^ 64) (i t : Nat) (hi : i < rows)
    (ht : t < cols) (hc : cols < 2 ^ 32) :
    gpuBprUser cols i t = some ((i * cols + t : Nat) : Int) ∧ gpuNormsRead cols i t = some ((i * cols + t : Nat) : Int) := by
  have h1 : (i + 1) * cols ≤ rows * cols := Nat.mul_le_mul_right _ (by omega)
  rw [Nat.add_mul, Nat.one_mul] at h1
  have h2 : (i : Int) * cols < 2 ^ 64 := by
    have : i * cols < 2 ^ 64 := by omega
    exact_mod_cast this
  have h3 : (i : Int) * cols + t < 2 ^ 64 := by
    have : i * cols + t < 2 ^ 64 := by omega
    exact_mod_cast this
  have h0 : (0 : Int) ≤ (i : Int) * cols := by positivity
  constructor
  · unfold gpuBprUser
    rw [mul_int_size (by omega) (by omega) (by omega) (by omega) h2]
    simp [size]
  · unfold gpuNormsRead
    rw [mul_int_size (by omega) (by omega) (by omega) (by omega) h2]
    simp only [Option.bind_eq_bind, Option.bind_some]
    rw [add_size_uint h0 (by omega) h3]
    simp [size]

example : gpuNormsRead 256 2000000000 255 = some 512000000255 := by decide +kernel

/-! ### Grid-stride loops -/

/-- The rows below `bound` that a block is meant to visit: every `grid`-th one from its own index on. -/
def Spec.share (bound grid block : Nat) : List Nat :=
  (List.range bound).filter fun u => decide (block ≤ u ∧ (u - block) % grid = 0)

theorem share_nil {bound grid block : Nat} (h : bound ≤ block) : Spec.share bound grid block = [] := by
  unfold Spec.share
  rw [List.filter_eq_nil_iff]
  intro u hu
  rw [List.mem_range] at hu
  simp only [decide_eq_true_eq]
  omega

theorem share_cons {bound grid block : Nat} (hg : 0 < grid) (h : block < bound) :
    Spec.share bound grid block = block :: Spec.share bound grid (block + grid) := by
  have s1 : (Spec.share bound grid block).Pairwise (· < ·) := (List.pairwise_lt_range (n := bound)).filter _
  have s2 : (Spec.share bound grid (block + grid)).Pairwise (· < ·) := (List.pairwise_lt_range (n := bound)).filter _
  have m2 : ∀ x, x ∈ Spec.share bound grid (block + grid) ↔ x < bound ∧ block + grid ≤ x ∧ (x - (block + grid)) % grid = 0 := by
    intro x
    simp [Spec.share]
  have s3 : (block :: Spec.share bound grid (block + grid)).Pairwise (· < ·) := by
    rw [List.pairwise_cons]
    refine ⟨fun x hx => ?_, s2⟩
    have := (m2 x).mp hx
    omega
  apply List.Perm.eq_of_pairwise (le := (· < ·)) (fun a b _ _ h1 h2 => by omega) s1 s3
  rw [List.perm_ext_iff_of_nodup (s1.imp Nat.ne_of_lt) (s3.imp Nat.ne_of_lt)]
  intro x
  rw [List.mem_cons, m2]
  have m1 : x ∈ Spec.share bound grid block ↔ x < bound ∧ block ≤ x ∧ (x - block) % grid = 0 := by simp [Spec.share]
  rw [m1]
  constructor
  · rintro ⟨a, b, c⟩
    rcases Nat.lt_or_ge (x - block) grid with hlt | hge
    · left
      rw [Nat.mod_eq_of_lt hlt] at c
      omega
    · right
      refine ⟨a, by omega, ?_⟩
      have e : x - block = (x - (block + grid)) + grid := by omega
      rw [e, Nat.add_mod_right] at c
      exact c
  · rintro (rfl | ⟨a, b, c⟩)
    · exact ⟨h, le_rfl, by simp⟩
    · refine ⟨a, by omega, ?_⟩
      have e : x - block = (x - (block + grid)) + grid := by omega
      rw [e, Nat.add_mod_right]
      exact c

theorem strideLoop_succ (bound : CInt) (grid fuel : Nat) (u : CInt) :
    strideLoop bound grid (fuel + 1) u = if lt u bound then (add u (uint grid)).bind fun next =>
      (strideLoop bound grid fuel (assign .int next)).bind fun rest => some (u.val :: rest) else some [] := rfl

theorem lt_int_size {u bound : Nat} (hu : u < 2 ^ 31) (hb : bound < 2 ^ 64) :
    lt (int u) (size bound) = decide (u < bound) := by
  have e : lt (int u) (size bound) = decide (CTy.size.convert u < CTy.size.convert bound) := rfl
  rw [e, convert_size (by omega) (by omega), convert_size (by omega) (by omega)]
  simp

theorem lt_int_int {u : Int} {bound : Nat} (h0 : -2 ^ 31 ≤ u) (hu : u < 2 ^ 31) (hb : bound < 2 ^ 31) :
    lt (int u) (int bound) = decide (u < bound) := by
  have e : lt (int u) (int bound) = decide (CTy.int.convert u < CTy.int.convert bound) := rfl
  rw [e, convert_int h0 hu, convert_int (by omega) (by omega)]

/-- A counter that has become negative ends a loop whose bound is a `size_t`. -/
theorem lt_neg_size {u : Int} {bound : Nat} (h0 : u < 0) (hu : -2 ^ 31 ≤ u) (hb : bound ≤ 2 ^ 31) :
    lt (int u) (size bound) = false := by
  have e : lt (int u) (size bound) = decide (CTy.size.convert u < CTy.size.convert bound) := rfl
  rw [e, convert_size (x := (bound : Int)) (by omega) (by omega)]
  unfold CTy.convert
  simp only [CTy.modulus, CTy.signed]
  simp
  omega

theorem assign_uint {x : Nat} (h : x < 2 ^ 32) :
    assign .int (uint x) = int (if x < 2 ^ 31 then (x : Int) else (x : Int) - 2 ^ 32) := by
  simp only [assign, uint, int, CInt.mk.injEq, true_and]
  unfold CTy.convert
  simp only [CTy.modulus, CTy.signed, true_and]
  split_ifs <;> omega

theorem strideLoop_size {bound grid : Nat} (hb : bound ≤ 2 ^ 31) (hg : 0 < grid) (hg' : grid ≤ 2 ^ 31) :
    ∀ (fuel u : Nat), u < 2 ^ 31 → bound ≤ u + fuel →
      strideLoop (size bound) grid fuel (int u) = some ((Spec.share bound grid u).map fun (v : Nat) => (v : Int)) := by
  intro fuel
  induction fuel with
  | zero =>
    intro u _ h
    rw [share_nil (by omega)]
    rfl
  | succ fuel ih =>
    intro u hu h
    rw [strideLoop_succ, lt_int_size hu (by omega)]
    by_cases hlt : u < bound
    · rw [decide_eq_true hlt, if_pos rfl, add_int_uint (by omega) (by omega) (by omega), Option.bind_some, share_cons hg hlt]
      have e : (u : Int) + (grid : Int) = ((u + grid : Nat) : Int) := by push_cast; rfl
      rw [e, assign_uint (by omega)]
      by_cases h2 : u + grid < 2 ^ 31
      · rw [if_pos h2, ih (u + grid) h2 (by omega), Option.bind_some]
        rfl
      · rw [if_neg h2, share_nil (by omega)]
        cases fuel with
        | zero => rfl
        | succ fuel =>
          rw [strideLoop_succ, lt_neg_size (by omega) (by omega) hb]
          rfl
    · rw [decide_eq_false hlt, share_nil (by omega)]
      rfl

/-- **C61** (GPU ALS): for all numbers of users an `int` can count, every block visits exactly its share of the rows, even when
the counter wraps after the last one. -/
theorem C61_gpu_als_rows (users grid block : Nat) (hu : users ≤ 2 ^ 31) (hg : 0 < grid) (hg' : grid ≤ 2 ^ 31)
    (hb : block < grid) (fuel : Nat) (hf : users ≤ fuel) :
    gpuAlsRows users grid block fuel = some ((Spec.share users grid block).map fun (v : Nat) => (v : Int)) :=
  strideLoop_size hu hg hg' fuel block (by omega) (by omega)

example : gpuAlsRows 11 4 2 11 = some [2, 6, 10] ∧ gpuAlsRows 2147483647 1500000000 600000000 5 = some [600000000, 2100000000] := by
  decide +kernel

/-- Together the blocks visit every row once. -/
theorem C61_gpu_als_cover (users grid : Nat) (hg : 0 < grid) (u : Nat) (hu : u < users) :
    ∃ b < grid, u ∈ Spec.share users grid b ∧ ∀ b' < grid, u ∈ Spec.share users grid b' → b' = b := by
  have m : ∀ b, u ∈ Spec.share users grid b ↔ u < users ∧ b ≤ u ∧ (u - b) % grid = 0 := by
    intro b
    simp [Spec.share]
  have uniq : ∀ b < grid, u ∈ Spec.share users grid b → b = u % grid := by
    intro b hb hm
    obtain ⟨-, h1, h2⟩ := (m b).mp hm
    obtain ⟨c, hc⟩ := Nat.dvd_of_mod_eq_zero h2
    have e : u = b + grid * c := by omega
    rw [e, Nat.add_mul_mod_self_left, Nat.mod_eq_of_lt hb]
  refine ⟨u % grid, Nat.mod_lt _ hg, (m _).mpr ⟨hu, Nat.mod_le _ _, ?_⟩, fun b hb hm => uniq b hb hm⟩
  have e : u - u % grid = grid * (u / grid) := by
    have := Nat.mod_add_div u grid
    omega
  rw [e, Nat.mul_mod_right]

theorem strideLoop_int {bound grid : Nat} (hg : 0 < grid) (hbg : bound + grid ≤ 2 ^ 31) :
    ∀ (fuel u : Nat), u < 2 ^ 31 → bound ≤ u + fuel →
      strideLoop (int bound) grid fuel (int u) = some ((Spec.share bound grid u).map fun (v : Nat) => (v : Int)) := by
  intro fuel
  induction fuel with
  | zero =>
    intro u _ h
    rw [share_nil (by omega)]
    rfl
  | succ fuel ih =>
    intro u hu h
    rw [strideLoop_succ, lt_int_int (by omega) (by omega) (by omega)]
    by_cases hlt : u < bound
    · rw [decide_eq_true (by omega), if_pos rfl, add_int_uint (by omega) (by omega) (by omega), Option.bind_some,
        share_cons hg hlt]
      have e : (u : Int) + (grid : Int) = ((u + grid : Nat) : Int) := by push_cast; rfl
      rw [e, assign_uint (by omega), if_pos (by omega), ih (u + grid) (by omega) (by omega), Option.bind_some]
      rfl
    · rw [decide_eq_false (by omega), share_nil (by omega)]
      rfl

theorem strideLoop_int_neg {bound grid : Nat} (hg : 0 < grid) (hb : bound < 2 ^ 31) (hg' : grid ≤ 2 ^ 31)
    (hbg : 2 ^ 31 < bound + grid) :
    ∀ (fuel u : Nat), u < bound → (bound - 1 - u) % grid = 0 → bound < u + fuel →
      ∀ l, strideLoop (int bound) grid fuel (int u) = some l → ∃ v ∈ l, v < 0 := by
  intro fuel
  induction fuel with
  | zero => intro u _ _ _ _ _; omega
  | succ fuel ih =>
    intro u hu hmod h l hl
    rw [strideLoop_succ, lt_int_int (by omega) (by omega) hb, decide_eq_true (by omega), if_pos rfl,
      add_int_uint (by omega) (by omega) (by omega), Option.bind_some] at hl
    have e : (u : Int) + (grid : Int) = ((u + grid : Nat) : Int) := by push_cast; rfl
    rw [e, assign_uint (by omega)] at hl
    by_cases h2 : u + grid < bound
    · rw [if_pos (by omega)] at hl
      cases hr : strideLoop (int bound) grid fuel (int ((u + grid : Nat) : Int)) with
      | none => rw [hr] at hl; cases hl
      | some rest =>
        rw [hr, Option.bind_some, Option.some.injEq] at hl
        have hm : (bound - 1 - (u + grid)) % grid = 0 := by
          have e2 : bound - 1 - u = (bound - 1 - (u + grid)) + grid := by omega
          rw [e2, Nat.add_mod_right] at hmod
          exact hmod
        obtain ⟨v, hv, hneg⟩ := ih (u + grid) h2 hm (by omega) rest hr
        exact ⟨v, by rw [← hl]; exact List.mem_cons_of_mem _ hv, hneg⟩
    · have hlast : u = bound - 1 := by
        rw [Nat.mod_eq_of_lt (by omega)] at hmod
        omega
      rw [if_neg (by omega)] at hl
      obtain ⟨f, rfl⟩ : ∃ f, fuel = f + 1 := ⟨fuel - 1, by omega⟩
      obtain ⟨w, hw⟩ : ∃ w : Int, w = ((u + grid : Nat) : Int) - 2 ^ 32 := ⟨_, rfl⟩
      rw [← hw] at hl
      cases hr : strideLoop (int bound) grid (f + 1) (int w) with
      | none => rw [hr] at hl; cases hl
      | some rest =>
        rw [hr, Option.bind_some, Option.some.injEq] at hl
        rw [strideLoop_succ, lt_int_int (by omega) (by omega) hb, decide_eq_true (by omega), if_pos rfl] at hr
        cases ha : add (int w) (uint grid) with
        | none => rw [ha] at hr; cases hr
        | some next =>
          rw [ha, Option.bind_some] at hr
          cases hc : strideLoop (int bound) grid f (assign .int next) with
          | none => rw [hc] at hr; cases hr
          | some rest' =>
            rw [hc, Option.bind_some, Option.some.injEq] at hr
            refine ⟨w, ?_, by omega⟩
            rw [← hl, ← hr]
            exact List.mem_cons_of_mem _ (List.mem_cons_self)

/-- **C61** (GPU BPR): exactly for which numbers of samples every block draws its share of them. -/
theorem C61_gpu_bpr_samples (samples grid : Nat) (hg : 0 < grid) (hs : grid ≤ samples) (hs' : samples < 2 ^ 31) :
    (∀ b < grid, gpuBprSamples samples grid b (samples + 1) =
      some ((Spec.share samples grid b).map fun (v : Nat) => (v : Int))) ↔ samples + grid ≤ 2 ^ 31 := by
  constructor
  · intro h
    by_contra hlt
    have hb : (samples - 1) % grid < grid := Nat.mod_lt _ hg
    have hle : (samples - 1) % grid ≤ samples - 1 := Nat.mod_le _ _
    have hm : (samples - 1 - (samples - 1) % grid) % grid = 0 := by
      have e : samples - 1 - (samples - 1) % grid = grid * ((samples - 1) / grid) := by
        have := Nat.mod_add_div (samples - 1) grid
        omega
      rw [e, Nat.mul_mod_right]
    obtain ⟨v, hv, hneg⟩ := strideLoop_int_neg hg hs' (by omega) (by omega) (samples + 1) _ (by omega) hm (by omega) _
      (h _ hb)
    rw [List.mem_map] at hv
    obtain ⟨x, -, rfl⟩ := hv
    omega
  · intro h b hb
    exact strideLoop_int hg h (samples + 1) b (by omega) (by omega)

/-- **C61 violated** (GPU BPR): with 2,147,480,000 interactions and 27,648 blocks (108 multiprocessors) some block reads its
random numbers at a negative position; the ALS kernel with the same sizes does not. -/
theorem C61_gpu_bpr_violated :
    (∃ b < 27648, gpuBprSamples 2147480000 27648 b 2147480001 ≠
      some ((Spec.share 2147480000 27648 b).map fun (v : Nat) => (v : Int))) ∧
    strideLoop (int 2147480000) 27648 2 (int 2147479999) = some [2147479999, -2147459649] ∧
    (∀ b < 27648, gpuAlsRows 2147480000 27648 b 2147480001 =
      some ((Spec.share 2147480000 27648 b).map fun (v : Nat) => (v : Int))) := by
  refine ⟨?_, by decide +kernel, fun b hb => C61_gpu_als_rows _ _ _ (by norm_num) (by norm_num) (by norm_num) hb _
    (by norm_num)⟩
  by_contra h
  push Not at h
  have := (C61_gpu_bpr_samples 2147480000 27648 (by norm_num) (by norm_num) (by norm_num)).mp h
  norm_num at this

example : gpuBprSamples 11 4 2 12 = some [2, 6, 10] ∧ Spec.share 11 4 2 = [2, 6, 10] := by decide +kernel

/-! ## GPU top-k -/

/-- **C61** (GPU top-k): the positions of a search whose results fit in the four gigabytes of temporary memory, in batches that
fit there as well, are the intended ones. -/
theorem C61_gpu_knn (q n k b : Nat) (hk : 0 < k) (hn : n < 2 ^ 31) (hb : b ≤ q) (hres : q * k * 8 ≤ 2 ^ 32)
    (hbat : b = 1 ∨ b * n * 4 ≤ 2 ^ 32) :
    (∀ start < q, gpuKnnOffset k start = some ((start * k : Nat) : Int) ∧
      gpuKnnNext start b = some ((start + b : Nat) : Int)) ∧
    ∀ row < b, ∀ col < n, gpuKnnFilter n row col = some ((row * n + col : Nat) : Int) := by
  have hq : q ≤ q * k := Nat.le_mul_of_pos_right q hk
  constructor
  · intro start hs
    have hkq : k ≤ q * k := Nat.le_mul_of_pos_left k (by omega)
    have h1 : start * k ≤ q * k := Nat.mul_le_mul_right k (by omega)
    constructor
    · unfold gpuKnnOffset
      rw [product_eq (by omega) (by omega), if_pos (by omega)]
      rfl
    · unfold gpuKnnNext
      rw [add_int_size (by omega) (by omega) (by omega)]
      simp only [Option.bind_eq_bind, Option.bind_some, assign, size, Option.pure_def]
      rw [convert_int (by omega) (by omega)]
      norm_num
  · intro row hr col hc
    have e : gpuKnnFilter n row col = selectRead n row col := rfl
    have h1 : (row + 1) * n ≤ b * n := Nat.mul_le_mul_right n (by omega)
    rw [Nat.add_mul, Nat.one_mul] at h1
    rw [e, selectRead_eq hn (by omega) hc, if_pos]
    rcases hbat with rfl | hbat
    · omega
    · omega

example : gpuKnnOffset 100 5000000 = some 500000000 ∧ gpuKnnNext 5000000 1000 = some 5001000 ∧
    gpuKnnFilter 1000000 999 999999 = some 999999999 := by decide +kernel

end Implicit
