import Verif.Props.C89
import Verif.Props.C29
/-!
# C89 — Cosine similarities follow the ratings
-/

set_option linter.unusedSectionVars false

namespace Implicit

open Spec

theorem length_sq_column (W : SpRows ℝ) (i : Nat) : Spec.length (column W i) = Real.sqrt (similarity W i i) := by
  unfold Spec.length
  rw [similarity_eq_dot]
  congr 1
  refine Finset.sum_congr rfl fun u _ => ?_
  rw [pow_two]

theorem column_zero_iff (W : SpRows ℝ) (i : Nat) : column W i = 0 ↔ similarity W i i = 0 := by
  rw [similarity_eq_dot]
  constructor
  · intro h; simp [h]
  · intro h
    have := (Finset.sum_eq_zero_iff_of_nonneg (fun u _ => mul_self_nonneg (column W i u))).mp h
    funext u
    exact mul_self_eq_zero.mp (this u (Finset.mem_univ u))

/-- The cosine in terms of inner products. -/
theorem cosine_eq (W : SpRows ℝ) (i j : Nat) : cosine (column W i) (column W j) =
    similarity W i j / (Real.sqrt (similarity W i i) * Real.sqrt (similarity W j j)) := by
  unfold cosine
  rw [← length_sq_column, ← length_sq_column, similarity_eq_dot]
  split_ifs with h
  · rcases h with h | h
    · simp [h]
    · simp [h]
  · rfl

theorem similarity_self_nonneg (W : SpRows ℝ) (i : Nat) : 0 ≤ similarity W i i := by
  unfold similarity
  refine List.sum_nonneg fun x hx => ?_
  obtain ⟨row, -, rfl⟩ := List.mem_map.mp hx
  exact mul_self_nonneg _

theorem binary_le {W : SpRows ℝ} (h : Binary W) (i j : Nat) : similarity W i j ≤ similarity W i i := by
  unfold similarity
  refine List.sum_le_sum fun row hr => ?_
  rcases h row hr i with hi | hi <;> rcases h row hr j with hj | hj <;> simp [hi, hj]

theorem similarity_comm' (W : SpRows ℝ) (i j : Nat) : similarity W i j = similarity W j i := by
  unfold similarity
  congr 1
  exact List.map_congr_left fun row _ => mul_comm _ _

theorem binary_nonneg {W : SpRows ℝ} (h : Binary W) : NonNegative W := by
  intro row hr i
  rcases h row hr i with hi | hi <;> simp [hi]

/-- One more common user, in numbers. -/
theorem common_user {a b c : ℝ} (hc : 0 ≤ c) (ha : c ≤ a) (hb : c ≤ b) :
    c / (Real.sqrt a * Real.sqrt b) ≤ (c + 1) / (Real.sqrt (a + 1) * Real.sqrt (b + 1)) ∧
      (c < a → c / (Real.sqrt a * Real.sqrt b) < (c + 1) / (Real.sqrt (a + 1) * Real.sqrt (b + 1))) := by
  have ha0 : 0 ≤ a := le_trans hc ha
  have hb0 : 0 ≤ b := le_trans hc hb
  have hden : 0 < Real.sqrt (a + 1) * Real.sqrt (b + 1) :=
    mul_pos (Real.sqrt_pos.mpr (by linarith)) (Real.sqrt_pos.mpr (by linarith))
  have hpos : 0 < (c + 1) / (Real.sqrt (a + 1) * Real.sqrt (b + 1)) := div_pos (by linarith) hden
  by_cases hz : a = 0 ∨ b = 0
  · have : c / (Real.sqrt a * Real.sqrt b) = 0 := by rcases hz with h | h <;> simp [h]
    rw [this]
    exact ⟨hpos.le, fun _ => hpos⟩
  · push Not at hz
    have ha1 : 0 < a := lt_of_le_of_ne ha0 (Ne.symm hz.1)
    have hb1 : 0 < b := lt_of_le_of_ne hb0 (Ne.symm hz.2)
    have hden0 : 0 < Real.sqrt a * Real.sqrt b := mul_pos (Real.sqrt_pos.mpr ha1) (Real.sqrt_pos.mpr hb1)
    have e1 : (c * (Real.sqrt (a + 1) * Real.sqrt (b + 1))) ^ 2 = c ^ 2 * ((a + 1) * (b + 1)) := by
      rw [mul_pow, mul_pow, Real.sq_sqrt (by linarith), Real.sq_sqrt (by linarith)]
    have e2 : ((c + 1) * (Real.sqrt a * Real.sqrt b)) ^ 2 = (c + 1) ^ 2 * (a * b) := by
      rw [mul_pow, mul_pow, Real.sq_sqrt ha0, Real.sq_sqrt hb0]
    have hd : (c + 1) ^ 2 * (a * b) - c ^ 2 * ((a + 1) * (b + 1)) = c * (a * (b - c) + b * (a - c)) + (a * b - c * c) := by ring
    have h1 : 0 ≤ c * (a * (b - c) + b * (a - c)) :=
      mul_nonneg hc (add_nonneg (mul_nonneg ha0 (by linarith)) (mul_nonneg hb0 (by linarith)))
    have h2 : c * c ≤ a * b := mul_le_mul ha hb hc ha0
    have h3 : 0 ≤ (c + 1) * (Real.sqrt a * Real.sqrt b) := mul_nonneg (by linarith) hden0.le
    refine ⟨?_, fun hlt => ?_⟩
    · rw [div_le_div_iff₀ hden0 hden]
      refine le_of_sq_le_sq ?_ h3
      rw [e1, e2]; linarith
    · rw [div_lt_div_iff₀ hden0 hden]
      refine lt_of_pow_lt_pow_left₀ 2 h3 ?_
      rw [e1, e2]
      have : c * c < a * b := by
        calc c * c ≤ c * b := mul_le_mul_of_nonneg_left hb hc
          _ < a * b := mul_lt_mul_of_pos_right hlt hb1
      linarith

/-- A user who rated only one of the items, in numbers. -/
theorem other_user {a b c d : ℝ} (hc : 0 ≤ c) (ha : 0 ≤ a) (hb : 0 ≤ b) (hd : 0 ≤ d) (hz : a = 0 → c = 0) :
    c / (Real.sqrt (a + d) * Real.sqrt b) ≤ c / (Real.sqrt a * Real.sqrt b) := by
  rcases eq_or_lt_of_le ha with h0 | h0
  · rw [hz h0.symm]; simp
  rcases eq_or_lt_of_le hb with h1 | h1
  · simp [← h1]
  refine div_le_div_of_nonneg_left hc (mul_pos (Real.sqrt_pos.mpr h0) (Real.sqrt_pos.mpr h1)) ?_
  exact mul_le_mul_of_nonneg_right (Real.sqrt_le_sqrt (by linarith)) (Real.sqrt_nonneg b)

/-- **C89** (`CosineRecommender`, a new user; partial: without item 0, see C23).  On data of zeros and ones, one more user who has
both items raises the similarity of the two items, strictly if item `i` had a user the other item had not; with any
non-negative data one more user who rated only one of the two items lowers the similarity or leaves it; and one more user who
rated neither changes nothing. -/
theorem C89_cosine_partial (H : HeapImpl (ℝ × Nat) pairLt) {n K : Nat} (hK : 1 ≤ K) (hnK : n * K ≤ 2 ^ 31) (A B : SpRows ℝ)
    (row : List (Nat × ℝ)) (hnd : ∀ r ∈ A ++ row :: B, (r.map Prod.fst).Nodup) (hM : ∀ r ∈ A ++ row :: B, ∀ e ∈ r, e.1 < n)
    (hz : ∀ r ∈ A ++ row :: B, ∀ e ∈ r, e.2 ≠ 0) :
    ∃ sim sim', cosineFit H n K (A ++ B) false = .ok sim ∧ cosineFit H n K (A ++ row :: B) false = .ok sim' ∧
      ∀ i, 0 < i → i < n → ∀ p ∈ sim.getD i [], ∀ p' ∈ sim'.getD i [], p'.1 = p.1 →
        (Binary (A ++ row :: B) → Stored row i → Stored row p.1 → p.2 ≤ p'.2 ∧
          ((∃ r ∈ A ++ B, Stored r i ∧ ¬ Stored r p.1) → p.2 < p'.2)) ∧
        (NonNegative (A ++ B) → ¬ Stored row i ∨ ¬ Stored row p.1 → p'.2 ≤ p.2) ∧
        (¬ Stored row i → ¬ Stored row p.1 → p'.2 = p.2) := by
  have hsub : ∀ r ∈ A ++ B, r ∈ A ++ row :: B := by
    intro r hr
    rcases List.mem_append.mp hr with h | h
    · exact List.mem_append.mpr (Or.inl h)
    · exact List.mem_append.mpr (Or.inr (List.mem_cons_of_mem _ h))
  obtain ⟨sim, e, hl, h⟩ := C29_cosine_partial H n K hK hnK (A ++ B) (fun r hr => hnd r (hsub r hr))
    (fun r hr => hM r (hsub r hr)) (fun r hr => hz r (hsub r hr))
  obtain ⟨sim', e', hl', h'⟩ := C29_cosine_partial H n K hK hnK (A ++ row :: B) hnd hM hz
  refine ⟨sim, sim', e, e', fun i h0 hi p hp p' hp' hid => ?_⟩
  have hval : ∀ {W : SpRows ℝ} {sm : SpRows ℝ}, (∀ i, 0 < i → i < n → ∃ row out, sm[i]? = some row ∧ (∀ p, p ∈ row ↔ p ∈ out) ∧
        IsRanking K (CoRated W i) (fun j => some (cosine (column W i) (column W j))) out) →
      ∀ q ∈ sm.getD i [], q.2 = similarity W i q.1 / (Real.sqrt (similarity W i i) * Real.sqrt (similarity W q.1 q.1)) := by
    intro W sm hh q hq
    obtain ⟨r, out, h1, h2, h3⟩ := hh i h0 hi
    rw [List.getD_eq_getElem?_getD, h1] at hq
    rw [← cosine_eq]
    exact (Option.some.inj (h3.mem q ((h2 q).mp hq)).2).symm
  have hv := hval h p hp
  have hv' := hval h' p' hp'
  rw [hid, similarity_insert, similarity_insert, similarity_insert] at hv'
  set j := p.1 with hj
  refine ⟨fun hbin hsi hsj => ?_, fun hpos hor => ?_, fun hni hnj => ?_⟩
  · have hone : ∀ k, Stored row k → cell row k = 1 := by
      rintro k ⟨w, hw⟩
      have hrow : row ∈ A ++ row :: B := List.mem_append.mpr (Or.inr (by simp))
      have hc : cell row k = w := sumAt_of_mem (hnd row hrow) hw
      rcases hbin row hrow k with h | h
      · exact absurd (hc.symm.trans h) (hz row hrow _ hw)
      · exact h
    rw [hone i hsi, hone j hsj, one_mul] at hv'
    have hbin' : Binary (A ++ B) := fun r hr => hbin r (hsub r hr)
    have hc0 := similarity_nonneg (binary_nonneg hbin') i j
    have hca := binary_le hbin' i j
    have hcb : similarity (A ++ B) i j ≤ similarity (A ++ B) j j := by
      rw [similarity_comm']; exact binary_le hbin' j i
    obtain ⟨g1, g2⟩ := common_user hc0 hca hcb
    rw [hv, hv']
    refine ⟨g1, fun hex => g2 (lt_of_le_of_ne hca fun heq => ?_)⟩
    obtain ⟨r, hr, hs, hns⟩ := hex
    have hall : ∀ r ∈ A ++ B, cell r i * cell r j = cell r i * cell r i := by
      intro r hr
      refine le_antisymm ?_ ?_
      · rcases hbin' r hr i with hi | hi <;> rcases hbin' r hr j with hj | hj <;> simp [hi, hj]
      · by_contra hlt
        have hlt := not_le.mp hlt
        have : similarity (A ++ B) i j < similarity (A ++ B) i i := by
          unfold similarity
          refine List.sum_lt_sum _ _ (fun r hr => ?_) ⟨r, hr, hlt⟩
          rcases hbin' r hr i with hi | hi <;> rcases hbin' r hr j with hj | hj <;> simp [hi, hj]
        exact absurd heq (ne_of_lt this)
    have h1 := hall r hr
    have hcj : cell r j = 0 := sumAt_eq_zero hns
    obtain ⟨w, hw⟩ := hs
    have hci : cell r i = w := sumAt_of_mem (hnd r (hsub r hr)) hw
    rw [hcj, mul_zero, hci] at h1
    exact hz r (hsub r hr) _ hw (mul_self_eq_zero.mp h1.symm)
  · have hc0 := similarity_nonneg hpos i j
    have hzero : ∀ k l, similarity (A ++ B) k k = 0 → similarity (A ++ B) k l = 0 := by
      intro k l hk
      rw [similarity_eq_dot, (column_zero_iff _ _).mpr hk]
      simp
    rw [hv, hv']
    rcases hor with hn | hn
    · have hci : cell row i = 0 := sumAt_eq_zero hn
      rw [hci]
      simp only [zero_mul, mul_zero, add_zero]
      rw [mul_comm (Real.sqrt _) (Real.sqrt (_ + _)), mul_comm (Real.sqrt (similarity _ i i))]
      exact other_user hc0 (similarity_self_nonneg _ _) (similarity_self_nonneg _ _) (mul_self_nonneg _)
        (fun h => by rw [similarity_comm']; exact hzero j i h)
    · have hcj : cell row j = 0 := sumAt_eq_zero hn
      rw [hcj]
      simp only [zero_mul, mul_zero, add_zero]
      exact other_user hc0 (similarity_self_nonneg _ _) (similarity_self_nonneg _ _) (mul_self_nonneg _) (hzero i j)
  · have hci : cell row i = 0 := sumAt_eq_zero hni
    have hcj : cell row j = 0 := sumAt_eq_zero hnj
    rw [hv, hv', hci, hcj]
    simp

/-- Every stored cosine lies in `[-1, 1]`, in every row. -/
theorem cosineFit_cells (H : HeapImpl (ℝ × Nat) pairLt) {n K : Nat} (hK : 1 ≤ K) (hnK : n * K < 2 ^ 31) (counts : SpRows ℝ)
    (hnd : ∀ row ∈ counts, (row.map Prod.fst).Nodup) (hM : ∀ r ∈ counts, ∀ e ∈ r, e.1 < n) :
    ∃ sim, cosineFit H n K counts false = .ok sim ∧ sim.length = n ∧ SquareRows sim ∧
      ∀ i < n, ∀ j, |cell (sim.getD i []) j| ≤ 1 := by
  have hrows := normalized_rows n (fun _ _ v => v) counts hnd
  have hid : (itemUser n counts).entries.map (fun e : Nat × Nat × ℝ => (e.1, e.2.1, e.2.2)) =
      (itemUser n counts).entries := by simp
  rw [hid, weightRows_id] at hrows
  have hrows' : userRows counts.length (normalizeRows (itemUser n counts)) =
      ((counts.map fun row => row.map fun e => (e.1, e.2 / Spec.length (column counts e.1))).map coalesce) := hrows
  have hbound : ∀ r ∈ (counts.map fun row => row.map fun e => (e.1, e.2 / Spec.length (column counts e.1))).map coalesce,
      ∀ e ∈ r, e.1 < n := by
    intro r hr e he
    obtain ⟨d, hd, rfl⟩ := List.mem_map.mp hr
    obtain ⟨v, hv⟩ := (stored_coalesce d e.1).mp ⟨e.2, he⟩
    obtain ⟨w, hw, rfl⟩ := List.mem_map.mp hd
    obtain ⟨x, hx, hxe⟩ := List.mem_map.mp hv
    rw [← (Prod.mk.inj hxe).1]
    exact hM w hw x hx
  unfold cosineFit
  rw [hrows']
  obtain ⟨sim, e, hl, hc⟩ := knnFit_cells H hK (le_of_lt hnK) _ hbound
  refine ⟨sim, e, hl, knnFit_square H hnK hbound e, fun i hi j => ?_⟩
  rcases cell_cases (hc i hi).2.1 j with ⟨v, hv, ev⟩ | ⟨-, ev⟩
  · rw [ev]
    rcases ((hc i hi).1 j v).mp hv with h | ⟨-, -, rfl, -⟩
    · have h1 := ((hc i hi).2.2 _ h).2
      simp only at h1
      rw [h1, similarity_coalesce, similarity_cosine]
      exact (C29_range counts i j).1
    · simp
  · rw [ev]; simp

/-- **C89** (`CosineRecommender`, bounds).  No recommended item scores more (or less) than the sum of the absolute ratings of the
user. -/
theorem C89_cosine_bound (H : HeapImpl (ℝ × Nat) pairLt) (lowest : ℝ) {n K : Nat} (hK : 1 ≤ K) (hnK : n * K < 2 ^ 31)
    (counts : SpRows ℝ) (hnd : ∀ row ∈ counts, (row.map Prod.fst).Nodup) (hM : ∀ r ∈ counts, ∀ e ∈ r, e.1 < n)
    {row : List (Nat × ℝ)} (hrow : ∀ e ∈ row, e.1 < n) (N : Nat) (hN : 1 ≤ N) (liked : Bool) :
    ∃ sim out, cosineFit H n K counts false = .ok sim ∧
      knnRecommendOne H lowest (KnnState.ofSimilarity sim) [row] N liked none none =
        (.ok (intRow out), KnnState.ofSimilarity sim) ∧
      ∀ p ∈ out, |p.2| ≤ (row.map fun e => |e.2|).sum := by
  obtain ⟨sim, e, hl, hsq, hc⟩ := cosineFit_cells H hK hnK counts hnd hM
  obtain ⟨out, eo, ho⟩ := knnRecommendOne_ok H lowest sim hsq row (by rwa [hl]) [] N N hN liked none none rfl
  refine ⟨sim, out, e, eo, fun p hp => ?_⟩
  rw [← Option.some.inj (ho.mem p hp).2]
  have h0 : 0 ≤ (row.map fun e => |e.2|).sum := List.sum_nonneg fun x hx => by
    obtain ⟨y, -, rfl⟩ := List.mem_map.mp hx
    exact abs_nonneg _
  unfold knnScore
  split_ifs
  · rwa [abs_zero]
  · have key : ∀ l : List (Nat × ℝ), (∀ e ∈ l, e.1 < n) →
        |(l.map fun e => e.2 * cell (sim.getD e.1 []) p.1).sum| ≤ (l.map fun e => |e.2|).sum := by
      intro l
      induction l with
      | nil => intro _; simp
      | cons x l ih =>
        intro hx
        rw [List.map_cons, List.sum_cons, List.map_cons, List.sum_cons]
        refine le_trans (abs_add_le _ _) (add_le_add ?_ (ih fun e he => hx e (by simp [he])))
        rw [abs_mul]
        exact mul_le_of_le_one_right (abs_nonneg _) (hc x.1 (hx x (by simp)) p.1)
    exact key row hrow

/-- With room for all candidates every candidate is listed. -/
theorem ranking_lists {K : Nat} {E : Nat → Prop} {sc : Nat → Option ℝ} {out : List (Nat × ℝ)} (h : IsRanking K E sc out)
    {l : List Nat} (hE : ∀ i, E i → i ∈ l) (hl : l.length < K) {j : Nat} (hj : E j) : j ∈ out.map Prod.fst := by
  refine h.complete ?_ j hj
  have hsub : out.map Prod.fst ⊆ l := by
    intro i hi
    obtain ⟨p, hp, rfl⟩ := List.mem_map.mp hi
    exact hE _ (h.mem p hp).1
  have := (h.distinct.subperm hsub).length_le
  rw [List.length_map] at this
  omega

/-- **C89 is violated** by `CosineRecommender` for ratings other than 0 and 1: items 1 and 2 have the same user and cosine 1; a
second user who rates both, 1 and 5, lowers the similarity. -/
theorem C89_cosine_violated (H : HeapImpl (ℝ × Nat) pairLt) :
    ∃ sim sim' v', cosineFit H 3 3 [[(1, 1), (2, 1)]] false = .ok sim ∧
      cosineFit H 3 3 [[(1, 1), (2, 1)], [(1, 1), (2, 5)]] false = .ok sim' ∧
      (2, 1) ∈ sim.getD 1 [] ∧ (2, v') ∈ sim'.getD 1 [] ∧ v' < 1 := by
  have key : ∀ (counts : SpRows ℝ), (∀ row ∈ counts, (row.map Prod.fst).Nodup) → (∀ r ∈ counts, ∀ e ∈ r, e.1 = 1 ∨ e.1 = 2) →
      (∀ r ∈ counts, ∀ e ∈ r, e.2 ≠ 0) → CoRated counts 1 2 →
      ∃ sim, cosineFit H 3 3 counts false = .ok sim ∧ (2, similarity counts 1 2 /
        (Real.sqrt (similarity counts 1 1) * Real.sqrt (similarity counts 2 2))) ∈ sim.getD 1 [] := by
    intro counts hnd hM hz hco
    obtain ⟨sim, e, hl, h⟩ := C29_cosine_partial H 3 3 (by norm_num) (by norm_num) counts hnd
      (fun r hr e he => by rcases hM r hr e he with h | h <;> omega) hz
    obtain ⟨row, out, h1, h2, h3⟩ := h 1 (by norm_num) (by norm_num)
    refine ⟨sim, e, ?_⟩
    have hin := ranking_lists h3 (l := [1, 2]) (by
      rintro i ⟨r, hr, -, v, hv⟩
      simpa using hM r hr _ hv) (by simp) hco
    obtain ⟨p, hp, hid⟩ := List.mem_map.mp hin
    have hv := Option.some.inj (h3.mem p hp).2
    rw [hid, cosine_eq] at hv
    rw [List.getD_eq_getElem?_getD, h1, Option.getD_some]
    have hp' : p = (2, similarity counts 1 2 / (Real.sqrt (similarity counts 1 1) * Real.sqrt (similarity counts 2 2))) := by
      rw [hv, ← hid]
    rw [← hp']
    exact (h2 p).mpr hp
  obtain ⟨sim, e, hm⟩ := key [[(1, 1), (2, 1)]] (by simp) (by simp; tauto)
    (by simp; rintro a b (⟨-, rfl⟩ | ⟨-, rfl⟩) <;> norm_num)
    ⟨[(1, 1), (2, 1)], by simp, ⟨1, by simp⟩, ⟨1, by simp⟩⟩
  obtain ⟨sim', e', hm'⟩ := key [[(1, 1), (2, 1)], [(1, 1), (2, 5)]] (by simp)
    (by simp; constructor <;> tauto)
    (by simp; constructor <;> rintro a b (⟨-, rfl⟩ | ⟨-, rfl⟩) <;> norm_num)
    ⟨[(1, 1), (2, 1)], by simp, ⟨1, by simp⟩, ⟨1, by simp⟩⟩
  refine ⟨sim, sim', _, e, e', ?_, hm', ?_⟩
  · have : similarity ([[(1, 1), (2, 1)]] : SpRows ℝ) 1 2 / (Real.sqrt (similarity ([[(1, 1), (2, 1)]] : SpRows ℝ) 1 1) *
        Real.sqrt (similarity ([[(1, 1), (2, 1)]] : SpRows ℝ) 2 2)) = 1 := by
      simp [similarity, cell, sumAt]
    rwa [this] at hm
  · have h1 : similarity ([[(1, 1), (2, 1)], [(1, 1), (2, 5)]] : SpRows ℝ) 1 2 = 6 := by simp [similarity, cell, sumAt]; norm_num
    have h2 : similarity ([[(1, 1), (2, 1)], [(1, 1), (2, 5)]] : SpRows ℝ) 1 1 = 2 := by simp [similarity, cell, sumAt]; norm_num
    have h3 : similarity ([[(1, 1), (2, 1)], [(1, 1), (2, 5)]] : SpRows ℝ) 2 2 = 26 := by simp [similarity, cell, sumAt]; norm_num
    rw [h1, h2, h3, ← Real.sqrt_mul (by norm_num), div_lt_one (Real.sqrt_pos.mpr (by norm_num))]
    exact Real.lt_sqrt_of_sq_lt (by norm_num)

/-- The hypotheses of `C89_cosine_partial` hold for three items and two users; the third user has both of the items 1 and 2. -/
example : let A : SpRows ℝ := [[(1, 1), (2, 1)], [(0, 1), (1, 1)]]
    let row : List (Nat × ℝ) := [(1, 1), (2, 1)]
    (∀ r ∈ A ++ row :: [], (r.map Prod.fst).Nodup) ∧ (∀ r ∈ A ++ row :: [], ∀ e ∈ r, e.1 < 3) ∧
      (∀ r ∈ A ++ row :: [], ∀ e ∈ r, e.2 ≠ 0) ∧ Stored row 1 ∧ Stored row 2 ∧ Binary (A ++ row :: []) ∧
      ∃ r ∈ A ++ [], Stored r 1 ∧ ¬ Stored r 2 := by
  intro A row
  refine ⟨by simp [A, row],
    by simp [A, row]; refine ⟨?_, ?_, ?_⟩ <;> rintro a b (⟨rfl, -⟩ | ⟨rfl, -⟩) <;> norm_num,
    by simp [A, row]; refine ⟨?_, ?_, ?_⟩ <;> rintro a b (⟨-, rfl⟩ | ⟨-, rfl⟩) <;> norm_num, ⟨1, by simp [row]⟩, ⟨1, by simp [row]⟩, ?_,
    ⟨[(0, 1), (1, 1)], by simp [A], ⟨1, by simp⟩, by rintro ⟨v, hv⟩; simp at hv⟩⟩
  intro r hr i
  have key : ∀ a b : Nat, a ≠ b → cell ([(a, 1), (b, 1)] : List (Nat × ℝ)) i = 0 ∨ cell ([(a, 1), (b, 1)] : List (Nat × ℝ)) i = 1 := by
    intro a b hab
    simp only [cell, sumAt]
    by_cases h1 : a = i
    · have : b ≠ i := fun h => hab (h1.trans h.symm)
      simp [h1, this]
    · by_cases h2 : b = i <;> simp [h1, h2]
  have hr' : r = [(1, 1), (2, 1)] ∨ r = [(0, 1), (1, 1)] ∨ r = [(1, 1), (2, 1)] := by simpa [A, row] using hr
  rcases hr' with rfl | rfl | rfl
  · exact key 1 2 (by norm_num)
  · exact key 0 1 (by norm_num)
  · exact key 1 2 (by norm_num)

end Implicit
