import Verif.Lemmas.Growth
import Verif.Props.C103
/-!
# C103 in double precision, and beyond the range
-/

namespace Implicit

theorem cell_le {row : List (Nat × ℝ)} (hnd : (row.map Prod.fst).Nodup) {V : ℝ} (hV : 0 ≤ V) (h : ∀ e ∈ row, |e.2| ≤ V) (i : Nat) :
    |Spec.cell row i| ≤ V := by
  by_cases hc : row.any (fun e => e.1 == i) = true
  · have hf := filter_key hnd i
    rw [if_pos hc] at hf
    have : (i, Spec.cell row i) ∈ row.filter fun e => e.1 == i := by rw [hf]; simp
    exact h _ (List.mem_filter.mp this).1
  · rw [cell_of_not_any (Bool.eq_false_iff.mpr hc), abs_zero]
    exact hV

theorem sum_le_bound {α : Type} (l : List α) (g : α → ℝ) {B : ℝ} (h : ∀ x ∈ l, g x ≤ B) : (l.map g).sum ≤ l.length * B := by
  induction l with
  | nil => simp
  | cons x l ih =>
    simp only [List.map_cons, List.sum_cons, List.length_cons, Nat.cast_add, Nat.cast_one]
    have h1 := h x (by simp)
    have h2 := ih fun y hy => h y (by simp [hy])
    linarith

theorem double_large : (10 : ℝ) ^ 300 ≤ 2 ^ 1023 := by
  calc (10 : ℝ) ^ 300 = (10 ^ 3) ^ 100 := by rw [← pow_mul]
    _ ≤ (2 ^ 10) ^ 100 := pow_le_pow_left₀ (by norm_num) (by norm_num) _
    _ = 2 ^ 1000 := by rw [← pow_mul]
    _ ≤ 2 ^ 1023 := pow_le_pow_right₀ (by norm_num) (by norm_num)

/-- Up to `10^9` products of total size at most `10^9 B`. -/
theorem inRange_double {u η B : ℝ} (hu0 : 0 ≤ u) (hu : u ≤ 1 / 2 ^ 53) (hη0 : 0 ≤ η) (hη : η ≤ 1) (hB : 1 ≤ B) {c : Nat} (hc : c ≤ 10 ^ 9) {mass : ℝ}
    (hm : mass ≤ 10 ^ 9 * B) : Spec.SumInRange u η (10 ^ 10 * B) c mass := by
  unfold Spec.SumInRange
  have hc' : (c : ℝ) ≤ 10 ^ 9 := by exact_mod_cast hc
  have hc0 : (0 : ℝ) ≤ c := Nat.cast_nonneg _
  have h1 : ((c + 1 : Nat) : ℝ) * u ≤ (10 ^ 9 + 1) * (1 / 2 ^ 53) := by
    push_cast
    exact mul_le_mul (by linarith) hu hu0 (by norm_num)
  have h2 := pow_growth hu0 (c + 1) (h1.trans (by norm_num))
  have h3 : (1 + u) ^ (c + 1) ≤ 2 := by
    have : (2 : ℝ) * ((10 ^ 9 + 1) * (1 / 2 ^ 53)) ≤ 1 := by norm_num
    linarith
  have h4 : (c : ℝ) * η ≤ 10 ^ 9 * 1 := mul_le_mul hc' hη hη0 (by norm_num)
  have h5 : mass + 2 * c * η ≤ 3 * 10 ^ 9 * B := by linarith
  have h6 : (0 : ℝ) ≤ (1 + u) ^ (c + 1) := pow_nonneg (by linarith) _
  calc (1 + u) ^ (c + 1) * (mass + 2 * c * η) ≤ (1 + u) ^ (c + 1) * (3 * 10 ^ 9 * B) := mul_le_mul_of_nonneg_left h5 h6
    _ ≤ 2 * (3 * 10 ^ 9 * B) := mul_le_mul_of_nonneg_right h3 (by linarith)
    _ ≤ 10 ^ 10 * B := by linarith

theorem Spec.SumInRange.mono {u η Ω Ω' mass : ℝ} {c : Nat} (h : Spec.SumInRange u η Ω c mass) (hΩ : Ω ≤ Ω') : Spec.SumInRange u η Ω' c mass :=
  le_trans h hΩ

theorem data_inRange {u η : ℝ} (hu0 : 0 ≤ u) (hu : u ≤ 1 / 2 ^ 53) (hη0 : 0 ≤ η) (hη : η ≤ 1) {M : SpRows ℝ} (hlen : M.length ≤ 10 ^ 9)
    (hnd : ∀ row ∈ M, (row.map Prod.fst).Nodup) (hv : ∀ row ∈ M, ∀ e ∈ row, |e.2| ≤ 10 ^ 50) (i j : Nat) :
    Spec.SumInRange u η (10 ^ 10 * 10 ^ 100) (Spec.coRaters M i j) (Spec.similarityMass M i j) := by
  refine inRange_double hu0 hu hη0 hη (by norm_num) (List.countP_le_length.trans hlen) ?_
  unfold Spec.similarityMass
  refine (sum_le_bound M (fun row => |Spec.cell row i * Spec.cell row j|) (B := 10 ^ 100) ?_).trans
    (mul_le_mul_of_nonneg_right (by exact_mod_cast hlen) (by norm_num))
  intro row hrow
  rw [abs_mul]
  have h1 := cell_le (hnd row hrow) (by norm_num) (hv row hrow) i
  have h2 := cell_le (hnd row hrow) (by norm_num) (hv row hrow) j
  calc |Spec.cell row i| * |Spec.cell row j| ≤ 10 ^ 50 * 10 ^ 50 := mul_le_mul h1 h2 (abs_nonneg _) (by norm_num)
    _ = 10 ^ 100 := by norm_num

theorem roundSum_le (r : Rounding ℝ) {Ω : ℝ} (ps : List (ℝ × ℝ)) (h : Spec.SumInRange r.u r.η Ω ps.length (ps.map fun p => |p.1 * p.2|).sum) :
    |roundSum r ps| ≤ Ω := by
  unfold roundSum
  have key : ∀ (vs : List ℝ) (s : ℝ), Room r Ω s vs → |vs.foldl (fun s v => r.rnd (s + v)) s| ≤ Ω := by
    intro vs
    induction vs with
    | nil => intro s h; exact h.fits
    | cons v vs ih => intro s h; exact ih _ h.step
  exact key _ 0 (range_room h)

/-- **C103** (double precision, from `fit` to `recommend`).  Up to `10^9` users, stored values up to `10^50`: `fit` succeeds with finite similarities, and
`recommend` for a user row with up to `10^9` entries up to `10^50` has finite scores, with the guarantees of C83. -/
theorem C103_double (H : HeapImpl (ℝ × Nat) pairLt) (r : Rounding ℝ) (hu : r.u ≤ 1 / 2 ^ 53) (hη : r.η ≤ 1) (n K : Nat) (hK : 1 ≤ K)
    (hnK : n * K ≤ 2 ^ 31) (M : SpRows ℝ) (hlen : M.length ≤ 10 ^ 9) (hnd : ∀ row ∈ M, (row.map Prod.fst).Nodup)
    (hM : ∀ r ∈ M, ∀ e ∈ r, e.1 < n) (hv : ∀ row ∈ M, ∀ e ∈ row, |e.2| ≤ 10 ^ 50) :
    ∃ sim, extKnnFit H r (2 ^ 1023) n K M = .ok (some sim) ∧ sim.length = n ∧ (∀ row ∈ sim, ∀ e ∈ row, |e.2| ≤ 10 ^ 110) ∧
      ∀ (row : List (Nat × ℝ)), (∀ e ∈ row, e.1 < n) → row.length ≤ 10 ^ 9 → (∀ e ∈ row, |e.2| ≤ 10 ^ 50) → ∀ (k : Nat), 1 ≤ k → ∀ rm : Bool,
        ∃ out, extScorer H r (2 ^ 1023) sim (Accum.new n) row k rm = .ok (some out, Accum.new n) ∧
          Spec.ApproxRanking k (Spec.Reachable sim row) (knnScore sim row rm)
            (fun j => if rm = true ∧ j ∈ row.map Prod.fst then 0
              else Spec.sumError r.u r.η (Spec.scoreTerms sim row j) (Spec.itemMass sim row j)) out := by
  have hr := data_inRange r.u_nonneg hu r.η_nonneg hη hlen hnd hv
  have hbig : (10 : ℝ) ^ 10 * 10 ^ 100 ≤ 2 ^ 1023 := by
    rw [← pow_add]
    exact (pow_le_pow_right₀ (by norm_num) (by norm_num)).trans double_large
  have hbig' : (10 : ℝ) ^ 10 * 10 ^ 160 ≤ 2 ^ 1023 := by
    rw [← pow_add]
    exact (pow_le_pow_right₀ (by norm_num) (by norm_num)).trans double_large
  obtain ⟨sim, e, hl, hrows⟩ := roundFit_rows H r n K hK hnK M hM
  have hval : ∀ row ∈ sim, (row.map Prod.fst).Nodup ∧ ∀ p ∈ row, p.1 < n ∧ |p.2| ≤ 10 ^ 110 := by
    intro row hrow
    obtain ⟨i, hi⟩ := List.mem_iff_getElem?.mp hrow
    have hin : i < n := by rw [← hl]; exact (List.getElem?_eq_some_iff.mp hi).1
    obtain ⟨row', out, h1, h2, h3, h4⟩ := hrows i hin
    rw [hi] at h1
    cases h1
    refine ⟨h2.imp fun h => Nat.ne_of_lt h, fun p hp => ?_⟩
    rcases (h4 p).mp hp with ho | ⟨h0, rfl, -⟩
    · obtain ⟨⟨row', hr', -, w, hw⟩, hs⟩ := h3.mem p ho
      refine ⟨hM row' hr' (p.1, w) hw, ?_⟩
      have hs : p.2 = roundSum r (colPairs M i p.1) := by simpa using hs.symm
      rw [hs]
      have := roundSum_le r (Ω := 10 ^ 10 * 10 ^ 100) (colPairs M i p.1) (by
        rw [colPairs_length hnd, colPairs_map hnd (fun x => |x|) abs_zero]
        exact hr i p.1)
      exact this.trans (by norm_num)
    · exact ⟨by omega, by norm_num⟩
  refine ⟨sim, ?_, hl, fun row hrow p hp => ((hval row hrow).2 p hp).2, ?_⟩
  · rw [knnFit_toExt H r _ n K hK M hnd hM fun i _ j => (hr i j).mono hbig, e]
    rfl
  · intro row hrow hlen' hv' k hk rm
    subst hl
    refine C103_recommend H r _ sim (fun row hrow e he => ((hval row hrow).2 e he).1) (fun row hrow => (hval row hrow).1) row hrow k hk rm fun j => ?_
    refine (inRange_double r.u_nonneg hu r.η_nonneg hη (B := 10 ^ 160) (by norm_num) (List.countP_le_length.trans hlen') ?_).mono hbig'
    unfold Spec.itemMass
    refine (sum_le_bound row (fun e => |e.2 * Spec.cell (sim.getD e.1 []) j|) (B := 10 ^ 160) ?_).trans
      (mul_le_mul_of_nonneg_right (by exact_mod_cast hlen') (by norm_num))
    intro e he
    rw [abs_mul]
    have hmem : sim.getD e.1 [] ∈ sim := by
      rw [List.getD_eq_getElem?_getD, List.getElem?_eq_getElem (hrow e he)]
      exact List.getElem_mem _
    have h1 := cell_le (hval _ hmem).1 (V := 10 ^ 110) (by norm_num) (fun p hp => ((hval _ hmem).2 p hp).2) j
    calc |e.2| * |Spec.cell (sim.getD e.1 []) j| ≤ 10 ^ 50 * 10 ^ 110 := mul_le_mul (hv' e he) h1 (abs_nonneg _) (by norm_num)
      _ = 10 ^ 160 := by norm_num

theorem overflow_square (r : Rounding ℝ) (hu : r.u ≤ 1 / 4) (hη : r.η ≤ 1) : Ext.ofExact r (2 ^ 1023) (2 ^ 600 * 2 ^ 600) = .posInf := by
  have h1 := r.err (2 ^ 600 * 2 ^ 600)
  have hp : (0 : ℝ) < 2 ^ 600 * 2 ^ 600 := by positivity
  rw [abs_of_pos hp] at h1
  have h2 : r.u * (2 ^ 600 * 2 ^ 600) ≤ 1 / 4 * (2 ^ 600 * 2 ^ 600) := mul_le_mul_of_nonneg_right hu hp.le
  have h3 : (2 : ℝ) ^ 600 * 2 ^ 600 = 2 ^ 177 * 2 ^ 1023 := by rw [← pow_add, ← pow_add]
  have h4 : (4 : ℝ) * 2 ^ 1023 ≤ 2 ^ 177 * 2 ^ 1023 := mul_le_mul_of_nonneg_right (by norm_num) (by positivity)
  have h5 : (1 : ℝ) ≤ 2 ^ 1023 := one_le_pow₀ (by norm_num)
  have h6 := (abs_le.mp h1).1
  have h7 : ¬ |r.rnd (2 ^ 600 * 2 ^ 600)| ≤ 2 ^ 1023 := by
    intro h
    have h8 := (le_abs_self _).trans h
    rw [h3] at h2 h6 h8
    clear h h1 h3 hp hu
    generalize (2 : ℝ) ^ 177 * 2 ^ 1023 = a at h2 h4 h6 h8
    generalize (2 : ℝ) ^ 1023 = b at h4 h5 h8
    linarith
  unfold Ext.ofExact
  rw [if_neg h7, if_pos hp]

/-- **C103** (violated beyond the range).  One user with two items of value `2^600`: the products overflow, though the input is finite. -/
theorem C103_overflow_violated (H : HeapImpl (ℝ × Nat) pairLt) (r : Rounding ℝ) (hu : r.u ≤ 1 / 4) (hη : r.η ≤ 1) (K : Nat) :
    extKnnFit H r (2 ^ 1023) 2 K [[(0, 2 ^ 600), (1, 2 ^ 600)]] = .ok none := by
  have h := overflow_square r hu hη
  have ht : transposeRows 2 [[((0 : Nat), (2 : ℝ) ^ 600), (1, 2 ^ 600)]] = [[(0, 2 ^ 600)], [(0, 2 ^ 600)]] := by
    rfl
  have hp : extProducts r (2 ^ 1023) [[((0 : Nat), (2 : ℝ) ^ 600), (1, 2 ^ 600)]] [(0, 2 ^ 600)] = .ok [(0, .posInf), (1, .posInf)] := by
    show Except.ok ([(0, Ext.ofExact r (2 ^ 1023) (2 ^ 600 * 2 ^ 600)), (1, Ext.ofExact r (2 ^ 1023) (2 ^ 600 * 2 ^ 600))] ++ []) = _
    rw [h]
    rfl
  unfold extKnnFit
  rw [ht]
  simp only [extLoop, extRow, hp]
  rfl

/-- **C103** (cosine, violated beyond the range).  A single value `2^600`: its weight must be 1, but its square overflows and the weight is 0. -/
theorem C103_cosine_violated (r : Rounding ℝ) (hu : r.u ≤ 1 / 4) (hη : r.η ≤ 1) :
    extNormalize r (2 ^ 1023) ⟨1, [(0, 0, 2 ^ 600)]⟩ = [(0, 0, .fin 0)] ∧ (normalizeRows ⟨1, [(0, 0, 2 ^ 600)]⟩).entries = [(0, 0, 1)] := by
  constructor
  · have h := overflow_square r hu hη
    rw [← pow_two] at h
    show [(0, 0, Ext.div r (2 ^ 1023) (.fin (2 ^ 600)) (Ext.sqrt r (2 ^ 1023) (Ext.add r (2 ^ 1023) (.fin 0) (Ext.ofExact r (2 ^ 1023) ((2 ^ 600) ^ 2)))))] = _
    rw [h]
    rfl
  · have h : (2 : ℝ) ^ 600 ≠ 0 := by positivity
    simp only [normalizeRows, bincountW, List.map_cons, List.map_nil]
    simp [Real.sqrt_sq]

example := C103_overflow_violated insertionHeap (freeFloat 53) (by unfold freeFloat; norm_num) zero_le_one 20
example := C103_cosine_violated (freeFloat 53) (by unfold freeFloat; norm_num) zero_le_one

/-- Two users, three items. -/
def exampleRatings : SpRows ℝ := [[(0, 5), (2, 1)], [(1, 10 ^ 40), (2, -7)]]

theorem exampleRatings_nodup : ∀ row ∈ exampleRatings, (row.map Prod.fst).Nodup := by
  simp [exampleRatings]

theorem exampleRatings_items : ∀ row ∈ exampleRatings, ∀ e ∈ row, e.1 < 3 := by
  intro row hrow e he
  simp only [exampleRatings, List.mem_cons, List.not_mem_nil, or_false] at hrow
  rcases hrow with rfl | rfl <;> simp only [List.mem_cons, List.not_mem_nil, or_false] at he <;> rcases he with rfl | rfl <;> decide

theorem exampleRatings_values : ∀ row ∈ exampleRatings, ∀ e ∈ row, |e.2| ≤ 10 ^ 50 := by
  intro row hrow e he
  simp only [exampleRatings, List.mem_cons, List.not_mem_nil, or_false] at hrow
  rcases hrow with rfl | rfl <;> simp only [List.mem_cons, List.not_mem_nil, or_false] at he <;> rcases he with rfl | rfl <;> norm_num

theorem exampleRatings_length : exampleRatings.length ≤ 10 ^ 9 := by
  norm_num [exampleRatings]

example := C103_double insertionHeap (freeFloat 53) (by unfold freeFloat; norm_num) zero_le_one 3 2 (by norm_num) (by norm_num) exampleRatings
  exampleRatings_length exampleRatings_nodup exampleRatings_items exampleRatings_values

example := C103_fit_partial insertionHeap (freeFloat 53) (10 ^ 10 * 10 ^ 100) 3 2 (by norm_num) (by norm_num) exampleRatings exampleRatings_nodup
  exampleRatings_items fun i _ j => data_inRange (Rounding.u_nonneg _) (by unfold freeFloat; norm_num) le_rfl zero_le_one exampleRatings_length
    exampleRatings_nodup exampleRatings_values i j

/-- A finite and an infinite accumulator. -/
example : finitePairs [(3, (.fin 2 : Ext ℝ)), (1, .fin 5)] = some [(3, 2), (1, 5)] ∧ finitePairs [(3, (.fin 2 : Ext ℝ)), (1, .posInf)] = none :=
  ⟨rfl, rfl⟩

end Implicit
