import Verif.Model.RoundSingle
import Verif.Spec.SingleError
import Verif.Props.C103Cosine
import Verif.Lemmas.Relative
/-!
# C83 for the cosine of ratings in single precision
-/

namespace Implicit

variable {s r : Rounding ℝ}

theorem UpTo.chain {G H c s t : ℝ} (h : UpTo G c s) (h' : UpTo H s t) : UpTo (G * H) c t := by
  have hG : 0 ≤ G := by linarith [h.one]
  have hH : 0 ≤ H := by linarith [h'.one]
  refine ⟨one_le_mul_of_one_le_of_one_le h.one h'.one, h'.nonneg, ?_, ?_⟩
  · calc t ≤ H * s := h'.lower
      _ ≤ H * (G * c) := mul_le_mul_of_nonneg_left h.lower hH
      _ = _ := by ring
  · calc c ≤ G * s := h.upper
      _ ≤ G * (H * t) := mul_le_mul_of_nonneg_left h'.upper hG
      _ = _ := by ring

/-- The length of an item's vector as `normalize` computes it. -/
noncomputable def singleLength (s r : Rounding ℝ) (n : Nat) (counts : SpRows ℝ) (i : Nat) : ℝ :=
  r.rnd (Real.sqrt (roundBincount r ((itemUser n counts).entries.map fun e => (e.1, s.rnd (e.2.2 ^ 2))) i))

theorem singleBincount_eq (n : Nat) (counts : SpRows ℝ) (i : Nat) :
    roundBincount r ((itemUser n counts).entries.map fun e => (e.1, s.rnd (e.2.2 ^ 2))) i =
      (((itemUser n counts).entries.filter fun x => x.1 == i).map fun x => s.rnd (x.2.2 ^ 2)).foldl (fun a v => r.rnd (a + v)) 0 := by
  unfold roundBincount
  rw [List.filter_map, List.map_map]
  rfl

theorem squares_sum (n : Nat) {counts : SpRows ℝ} (hnd : ∀ row ∈ counts, (row.map Prod.fst).Nodup) (i : Nat) :
    (((itemUser n counts).entries.filter fun x => x.1 == i).map fun x => x.2.2 ^ 2).sum = Spec.length (Spec.column counts i) ^ 2 := by
  rw [entries_col n hnd i fun x => x, ← similarity_self]
  exact colPairs_map hnd (fun x => x) rfl i i

theorem squares_length (n : Nat) {counts : SpRows ℝ} (hnd : ∀ row ∈ counts, (row.map Prod.fst).Nodup) (i : Nat) :
    ((itemUser n counts).entries.filter fun x => x.1 == i).length = Spec.coRaters counts i i := by
  rw [← colPairs_length hnd, ← List.length_map (f := fun x : Nat × Nat × ℝ => x.2.2 ^ 2), entries_col n hnd i fun x => x, List.length_map]

/-- Computed squares, their sum and the root. -/
theorem upTo_singleLength (hs0 : s.η = 0) (hs : s.u < 1) (hr0 : r.η = 0) (hr : r.u < 1) (n : Nat) {counts : SpRows ℝ}
    (hnd : ∀ row ∈ counts, (row.map Prod.fst).Nodup) (i : Nat) {m : Nat} (hm : Spec.coRaters counts i i ≤ m) :
    UpTo (s.factor * r.factor ^ m) (roundBincount r ((itemUser n counts).entries.map fun e => (e.1, s.rnd (e.2.2 ^ 2))) i)
        (Spec.length (Spec.column counts i) ^ 2) ∧
      UpTo (Spec.singleLength s.u r.u m) (singleLength s r n counts i) (Spec.length (Spec.column counts i)) := by
  have hsq : ∀ x : ℝ, UpTo s.factor (s.rnd (x ^ 2)) (x ^ 2) := fun x =>
    ((UpTo.self (sq_nonneg x)).round s hs0 hs).mono (by rw [one_mul]; exact le_of_eq rfl)
  have h1 := upTo_foldl r hr0 hr (((itemUser n counts).entries.filter fun x => x.1 == i).map fun x => s.rnd (x.2.2 ^ 2)) (by
    intro y hy
    obtain ⟨e, -, rfl⟩ := List.mem_map.mp hy
    exact (hsq _).nonneg') (k := 0) (c := 0) (s := 0) (by rw [pow_zero]; exact UpTo.self le_rfl)
  rw [zero_add, zero_add, List.length_map, squares_length n hnd, ← singleBincount_eq] at h1
  have h2 := UpTo.sum ((itemUser n counts).entries.filter fun x => x.1 == i) (g := fun x => s.rnd (x.2.2 ^ 2)) (h := fun x => x.2.2 ^ 2)
    (one_le_factor s hs) fun e _ => hsq e.2.2
  rw [squares_sum n hnd] at h2
  have h3 := (h1.mono (pow_le_pow_right₀ (one_le_factor r hr) hm)).chain h2
  rw [mul_comm] at h3
  refine ⟨h3, ?_⟩
  have h4 := h3.sqrt.round r hr0 hr
  have hL : 0 ≤ Spec.length (Spec.column counts i) := Real.sqrt_nonneg _
  rw [Real.sqrt_sq hL] at h4
  refine h4.mono (le_of_eq ?_)
  unfold Spec.singleLength Rounding.factor
  rw [pow_succ]
  ring

theorem singleNormalize_rows (s r : Rounding ℝ) (n : Nat) (counts : SpRows ℝ) :
    userRows counts.length (singleNormalize s r (itemUser n counts)) =
      counts.map fun row => coalesce (row.map fun e => (e.1, r.rnd (e.2 / singleLength s r n counts e.1))) := by
  have h1 : singleNormalize s r (itemUser n counts) =
      ⟨n, (itemUser n counts).entries.map fun e => (e.1, e.2.1,
        (fun i _ v => r.rnd (v / singleLength s r n counts i)) e.1 e.2.1 e.2.2)⟩ := rfl
  rw [h1, userRows_eq n (fun i _ v => r.rnd (v / singleLength s r n counts i)) counts]
  generalize singleLength s r n counts = d
  unfold weightRows
  rw [List.map_map]
  have : counts = counts.zipIdx.map Prod.fst := by simp
  conv_rhs => rw [this, List.map_map]
  rfl

/-- **C83** (`CosineRecommender` for ratings in single precision; partial: row 0 as in C23).  Ratings without stored zeros, at most `m` per item, no underflow:
after `fit` the row of item `i` lists items with a user in common, similarities within `singleCosineError` of the exact cosines, and no item instead of
another whose cosine is greater by more than twice that. -/
theorem C83_single_partial (H : HeapImpl (ℝ × Nat) pairLt) (s r : Rounding ℝ) (hs0 : s.η = 0) (hs : s.u < 1) (hr0 : r.η = 0) (hr : r.u < 1) (n K : Nat)
    (hK : 1 ≤ K) (hnK : n * K ≤ 2 ^ 31) (counts : SpRows ℝ) (hnd : ∀ row ∈ counts, (row.map Prod.fst).Nodup)
    (hM : ∀ r ∈ counts, ∀ e ∈ r, e.1 < n) (hz : ∀ r ∈ counts, ∀ e ∈ r, e.2 ≠ 0) (m : Nat)
    (hm : ∀ i, Spec.coRaters counts i i ≤ m) (hu : Spec.singleLength s.u r.u m < 2) :
    ∃ sim, singleCosineFit H s r n K counts = .ok sim ∧ sim.length = n ∧
      ∀ i, 0 < i → i < n → ∃ row out, sim[i]? = some row ∧ (∀ p, p ∈ row ↔ p ∈ out) ∧
        Spec.ApproxRanking K (Spec.CoRated counts i) (fun j => Spec.cosine (Spec.column counts i) (Spec.column counts j))
          (fun _ => Spec.singleCosineError s.u r.u m) out := by
  unfold singleCosineFit
  rw [singleNormalize_rows s r n counts]
  have hst : ∀ row i, Spec.Stored (coalesce (row.map fun e => (e.1, r.rnd (e.2 / singleLength s r n counts e.1)))) i ↔ Spec.Stored row i :=
    fun row i => (stored_coalesce _ i).trans (stored_weight (fun i v => r.rnd (v / singleLength s r n counts i)) row i)
  set W := counts.map fun row => coalesce (row.map fun e => (e.1, r.rnd (e.2 / singleLength s r n counts e.1))) with hW
  have hbound : ∀ r ∈ W, ∀ e ∈ r, e.1 < n := by
    intro w hw e he
    obtain ⟨row, hrow, rfl⟩ := List.mem_map.mp hw
    obtain ⟨v, hv⟩ := (hst row e.1).mp ⟨e.2, he⟩
    exact hM row hrow (e.1, v) hv
  obtain ⟨sim, e, hl, h⟩ := roundFit_rows H r n K hK hnK W hbound
  refine ⟨sim, e, hl, fun i hi0 hi => ?_⟩
  obtain ⟨row, out, h1, -, h3, h4⟩ := h i hi
  have hco : Spec.CoRated W i = Spec.CoRated counts i := by
    funext j
    apply propext
    unfold Spec.CoRated
    rw [hW]
    simp only [List.mem_map, exists_exists_and_eq_and, hst]
  rw [hco] at h3
  have hlen := fun k => (upTo_singleLength hs0 hs hr0 hr n hnd k (hm k)).2
  refine ⟨row, out, h1, fun p => (h4 p).trans ⟨?_, Or.inl⟩, approx_of_ranking h3 fun j hj =>
    cosine_error_lengths r hr0 hnd hz m hm (hlen 0).one hu (singleLength s r n counts) (fun k _ => (hlen k).abs_le) i j hj⟩
  rintro (hp | ⟨h0, -⟩)
  · exact hp
  · omega

/-- Single precision ratings: with up to a million ratings per item a cosine similarity is off by less than `0.000001`. -/
theorem C83_single_error (m : Nat) (hm : m ≤ 1000000) :
    Spec.singleCosineError ((2 : ℝ) ^ (-24 : Int)) (2 ^ (-53 : Int)) m < 1 / 10 ^ 6 ∧ Spec.singleLength ((2 : ℝ) ^ (-24 : Int)) (2 ^ (-53 : Int)) m < 2 := by
  have hm' : (m : ℝ) ≤ 1000000 := by exact_mod_cast hm
  have hb : (1 / (1 - (2 : ℝ) ^ (-53 : Int))) ≤ 1 + 2 / 2 ^ 53 := by
    rw [div_le_iff₀ (by norm_num)]
    norm_num
  have hp : ∀ k : Nat, k ≤ m + 3 → (1 + 2 / 2 ^ 53 : ℝ) ^ k ≤ 1 + 1 / 10 ^ 9 := by
    intro k hk
    have hk' : (k : ℝ) ≤ 1000003 := by
      have : (k : ℝ) ≤ m + 3 := by exact_mod_cast hk
      linarith
    have h1 : (k : ℝ) * (2 / 2 ^ 53) ≤ 1000003 * (2 / 2 ^ 53) := mul_le_mul_of_nonneg_right hk' (by norm_num)
    have h2 := pow_growth (u := 2 / 2 ^ 53) (by norm_num) k (h1.trans (by norm_num))
    have h3 : 2 * (1000003 * (2 / 2 ^ 53)) ≤ (1 : ℝ) / 10 ^ 9 := by norm_num
    linarith
  have hL : Spec.singleLength ((2 : ℝ) ^ (-24 : Int)) (2 ^ (-53 : Int)) m ≤ 1 + 7 / 10 ^ 8 := by
    unfold Spec.singleLength
    have h1 := (pow_le_pow_left₀ (by norm_num) hb (m + 1)).trans (hp (m + 1) (by omega))
    calc 1 / (1 - (2 : ℝ) ^ (-24 : Int)) * (1 / (1 - (2 : ℝ) ^ (-53 : Int))) ^ (m + 1)
        ≤ 1 / (1 - (2 : ℝ) ^ (-24 : Int)) * (1 + 1 / 10 ^ 9) := mul_le_mul_of_nonneg_left h1 (by norm_num)
      _ ≤ _ := by norm_num
  refine ⟨?_, lt_of_le_of_lt hL (by norm_num)⟩
  unfold Spec.singleCosineError
  have h1 : (1 + (2 : ℝ) ^ (-53 : Int)) ^ (m + 3) ≤ 1 + 1 / 10 ^ 9 :=
    (pow_le_pow_left₀ (by norm_num) (by norm_num) (m + 3)).trans (hp (m + 3) le_rfl)
  generalize Spec.singleLength ((2 : ℝ) ^ (-24 : Int)) (2 ^ (-53 : Int)) m = g at hL
  have h2 : (1 - 7 / 10 ^ 8) ^ 2 ≤ (2 - g) ^ 2 := pow_le_pow_left₀ (by norm_num) (by linarith) 2
  have h3 : (1 + (2 : ℝ) ^ (-53 : Int)) ^ (m + 3) / (2 - g) ^ 2 ≤ (1 + 1 / 10 ^ 9) / (1 - 7 / 10 ^ 8) ^ 2 :=
    div_le_div₀ (by norm_num) h1 (by norm_num) h2
  have h4 : (1 + 1 / 10 ^ 9 : ℝ) / (1 - 7 / 10 ^ 8) ^ 2 < 1 + 1 / 10 ^ 6 := by norm_num
  linarith

example := C83_single_partial insertionHeap (freeFloat 24) (freeFloat 53) rfl (by unfold freeFloat; norm_num) rfl (by unfold freeFloat; norm_num) 3 2
  (by norm_num) (by norm_num) exampleRatings exampleRatings_nodup exampleRatings_items exampleRatings_nonzero 2 (fun _ => List.countP_le_length)
  (by unfold freeFloat Spec.singleLength; norm_num)

end Implicit
