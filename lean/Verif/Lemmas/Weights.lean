import Verif.Model.Weights
import Verif.Spec.Weights
import Verif.Lemmas.KnnLoop
import Verif.Props.C07
/-!
# Lemmas about weighted ratings
-/

namespace Implicit

/-- The weighted rows of a user matrix: value `v` of item `i` of user `u` becomes `g i u v`. -/
def weightRows (g : Nat → Nat → ℝ → ℝ) (M : SpRows ℝ) : SpRows ℝ :=
  M.zipIdx.map fun p => p.1.map fun e => (e.1, g e.1 p.2 e.2)

theorem cooRow_zipIdx (g : Nat → Nat → ℝ → ℝ) : ∀ (M : SpRows ℝ) (k r : Nat),
    cooRow r ((M.zipIdx k).flatMap fun p => p.1.map fun e => (p.2, e.1, g e.1 p.2 e.2)) =
      if k ≤ r then (M.getD (r - k) []).map fun e => (e.1, g e.1 r e.2) else []
  | [], k, r => by simp [cooRow]
  | row :: M, k, r => by
    rw [List.zipIdx_cons, List.flatMap_cons, cooRow_append, cooRow_zipIdx g M (k + 1) r]
    rcases Nat.lt_trichotomy r k with h | h | h
    · rw [if_neg (by omega), if_neg (by omega), List.append_nil]
      unfold cooRow
      rw [List.map_eq_nil_iff, List.filter_eq_nil_iff]
      intro e he
      obtain ⟨x, -, rfl⟩ := List.mem_map.mp he
      simp; omega
    · subst h
      rw [if_neg (by omega), if_pos le_rfl, List.append_nil, Nat.sub_self]
      unfold cooRow
      rw [List.filter_map, List.map_map]
      have : row.filter ((fun c : KnnCell ℝ => c.1 == r) ∘ fun e => (r, e.1, g e.1 r e.2)) = row := by
        rw [List.filter_eq_self]; intro e _; simp
      rw [this]
      rfl
    · rw [if_pos (by omega), if_pos (by omega)]
      have h0 : cooRow r (row.map fun e => ((k, e.1, g e.1 k e.2) : KnnCell ℝ)) = [] := by
        unfold cooRow
        rw [List.map_eq_nil_iff, List.filter_eq_nil_iff]
        intro e he
        obtain ⟨x, -, rfl⟩ := List.mem_map.mp he
        simp; omega
      rw [h0, List.nil_append]
      obtain ⟨d, rfl⟩ : ∃ d, r = k + 1 + d := ⟨r - (k + 1), by omega⟩
      rw [show k + 1 + d - (k + 1) = d by omega, show k + 1 + d - k = d + 1 by omega]
      rfl

/-- Back from triples to user rows. -/
theorem userRows_eq (n : Nat) (g : Nat → Nat → ℝ → ℝ) (M : SpRows ℝ) :
    userRows M.length ⟨n, (itemUser n M).entries.map fun e => (e.1, e.2.1, g e.1 e.2.1 e.2.2)⟩ =
      (weightRows g M).map coalesce := by
  have hcells : (((itemUser n M).entries.map fun e => (e.1, e.2.1, g e.1 e.2.1 e.2.2)).map
      fun e : Nat × Nat × ℝ => ((e.2.1, e.1, e.2.2) : KnnCell ℝ)) =
      (M.zipIdx 0).flatMap fun p => p.1.map fun e => (p.2, e.1, g e.1 p.2 e.2) := by
    unfold itemUser
    simp only [List.map_flatMap, List.map_map]
    rfl
  unfold userRows cooToCsr
  simp only [hcells]
  apply List.ext_getElem?
  intro u
  rw [List.getElem?_map, List.getElem?_map]
  unfold weightRows
  rw [List.getElem?_map, List.getElem?_zipIdx]
  by_cases hu : u < M.length
  · rw [List.getElem?_range hu, List.getElem?_eq_getElem hu]
    simp only [Option.map_some, Nat.zero_add]
    congr 1
    have := cooRow_zipIdx g M 0 u
    unfold cooRow at this
    rw [this, if_pos (Nat.zero_le _), Nat.sub_zero, List.getD_eq_getElem?_getD,
      List.getElem?_eq_getElem hu]
    rfl
  · rw [List.getElem?_eq_none (by simpa using hu), List.getElem?_eq_none (by simpa using hu)]
    rfl

theorem sumAt_coalesce (es : List (Nat × ℝ)) (j : Nat) :
    Spec.sumAt (coalesce es) j = Spec.sumAt es j := by
  by_cases h : Spec.Stored es j
  · have := (mem_coalesce es j _).mpr ⟨h, rfl⟩
    exact sumAt_of_mem ((coalesce_sorted es).imp fun hab => Nat.ne_of_lt hab) this
  · rw [sumAt_eq_zero h, sumAt_eq_zero]
    rintro ⟨v, hv⟩
    exact h ((mem_coalesce es j v).mp hv).1

theorem stored_coalesce (es : List (Nat × ℝ)) (j : Nat) :
    Spec.Stored (coalesce es) j ↔ Spec.Stored es j := by
  constructor
  · rintro ⟨v, hv⟩; exact ((mem_coalesce es j v).mp hv).1
  · intro h; exact ⟨_, (mem_coalesce es j _).mpr ⟨h, rfl⟩⟩

theorem similarity_coalesce (W : SpRows ℝ) (i j : Nat) :
    Spec.similarity (W.map coalesce) i j = Spec.similarity W i j := by
  unfold Spec.similarity Spec.cell
  rw [List.map_map]
  congr 1
  refine List.map_congr_left fun row _ => ?_
  simp only [Function.comp_apply, sumAt_coalesce]

theorem coRated_coalesce (W : SpRows ℝ) (i j : Nat) :
    Spec.CoRated (W.map coalesce) i j ↔ Spec.CoRated W i j := by
  unfold Spec.CoRated
  simp only [List.mem_map, exists_exists_and_eq_and, stored_coalesce]

theorem stored_weight (g : Nat → ℝ → ℝ) (row : List (Nat × ℝ)) (j : Nat) :
    Spec.Stored (row.map fun e => (e.1, g e.1 e.2)) j ↔ Spec.Stored row j := by
  unfold Spec.Stored
  constructor
  · rintro ⟨v, hv⟩
    obtain ⟨e, he, h⟩ := List.mem_map.mp hv
    cases h
    exact ⟨e.2, he⟩
  · rintro ⟨v, hv⟩
    exact ⟨_, List.mem_map.mpr ⟨_, hv, rfl⟩⟩

theorem coRated_weight (g : Nat → Nat → ℝ → ℝ) (M : SpRows ℝ) (i j : Nat) :
    Spec.CoRated (weightRows g M) i j ↔ Spec.CoRated M i j := by
  unfold Spec.CoRated weightRows
  constructor
  · rintro ⟨row, hrow, h1, h2⟩
    obtain ⟨⟨r, u⟩, hp, rfl⟩ := List.mem_map.mp hrow
    exact ⟨r, List.mem_of_getElem? ((List.mem_zipIdx_iff_getElem?).mp hp),
      (stored_weight (fun i v => g i u v) r i).mp h1, (stored_weight (fun i v => g i u v) r j).mp h2⟩
  · rintro ⟨row, hrow, h1, h2⟩
    obtain ⟨u, hu⟩ := List.mem_iff_getElem?.mp hrow
    refine ⟨_, List.mem_map.mpr ⟨(row, u), List.mem_zipIdx_iff_getElem?.mpr hu, rfl⟩, ?_, ?_⟩
    · exact (stored_weight (fun i v => g i u v) row i).mpr h1
    · exact (stored_weight (fun i v => g i u v) row j).mpr h2

/-- `similarity` as a sum over the users. -/
theorem similarity_eq_dot (W : SpRows ℝ) (i j : Nat) :
    Spec.similarity W i j = ∑ u, Spec.column W i u * Spec.column W j u := by
  unfold Spec.similarity Spec.column
  rw [← List.sum_ofFn]
  congr 1
  apply List.ext_getElem (by simp)
  intro u h1 h2
  simp

/-- Dividing every item's ratings by a number of its own. -/
theorem cell_div (d : Nat → ℝ) (row : List (Nat × ℝ)) (j : Nat) :
    Spec.cell (row.map fun e => (e.1, e.2 / d e.1)) j = Spec.cell row j / d j := by
  unfold Spec.cell
  induction row with
  | nil => simp [Spec.sumAt]
  | cons e row ih =>
    simp only [List.map_cons, Spec.sumAt, ih, add_div]
    congr 1
    by_cases h : e.1 = j
    · simp [h]
    · simp [h]

theorem similarity_div (d : Nat → ℝ) (W : SpRows ℝ) (i j : Nat) :
    Spec.similarity (W.map fun row => row.map fun e => (e.1, e.2 / d e.1)) i j =
      Spec.similarity W i j / (d i * d j) := by
  unfold Spec.similarity
  rw [List.map_map]
  induction W with
  | nil => simp
  | cons row W ih =>
    simp only [List.map_cons, List.sum_cons, ih, Function.comp_apply, cell_div]
    ring

/-- With the lengths of the item vectors as divisors the similarity is the cosine. -/
theorem similarity_cosine (W : SpRows ℝ) (i j : Nat) :
    Spec.similarity (W.map fun row => row.map fun e =>
        (e.1, e.2 / Spec.length (Spec.column W e.1))) i j =
      Spec.cosine (Spec.column W i) (Spec.column W j) := by
  rw [similarity_div fun k => Spec.length (Spec.column W k), similarity_eq_dot]
  unfold Spec.cosine
  split_ifs with h
  · rcases h with h | h <;> simp [h]
  · rfl

/-- The squares of the stored values of an item, for rows without repetitions, add up to the squared
length of its vector. -/
theorem bincountW_append (a b : List (Nat × ℝ)) (k : Nat) :
    bincountW (a ++ b) k = bincountW a k + bincountW b k := by
  unfold bincountW; simp

theorem bincountW_eq_sumAt (a : List (Nat × ℝ)) (k : Nat) : bincountW a k = Spec.sumAt a k := by
  induction a with
  | nil => rfl
  | cons e a ih =>
    rw [show e :: a = [e] ++ a from rfl, bincountW_append, ih, sumAt_append]
    congr 1
    obtain ⟨i, v⟩ := e
    by_cases h : i = k <;> simp [bincountW, Spec.sumAt, h]

theorem sumAt_sq {row : List (Nat × ℝ)} (hnd : (row.map Prod.fst).Nodup) (k : Nat) :
    Spec.sumAt (row.map fun e => (e.1, e.2 ^ 2)) k = Spec.cell row k ^ 2 := by
  unfold Spec.cell
  by_cases h : Spec.Stored row k
  · obtain ⟨v, hv⟩ := h
    rw [sumAt_of_mem hnd hv]
    refine sumAt_of_mem (v := v ^ 2) ?_ (List.mem_map.mpr ⟨(k, v), hv, rfl⟩)
    rw [List.map_map]; exact hnd
  · rw [sumAt_eq_zero h, sumAt_eq_zero (by rwa [stored_weight fun _ v => v ^ 2])]
    simp

theorem weightRows_nodup {g : Nat → Nat → ℝ → ℝ} {M : SpRows ℝ}
    (hnd : ∀ row ∈ M, (row.map Prod.fst).Nodup) :
    ∀ row ∈ weightRows g M, (row.map Prod.fst).Nodup := by
  intro row hrow
  obtain ⟨⟨r, u⟩, hp, rfl⟩ := List.mem_map.mp hrow
  rw [List.map_map]
  exact hnd r (List.mem_of_getElem? (List.mem_zipIdx_iff_getElem?.mp hp))

theorem norm_eq (n : Nat) (g : Nat → Nat → ℝ → ℝ) (M : SpRows ℝ)
    (hnd : ∀ row ∈ M, (row.map Prod.fst).Nodup) (i : Nat) :
    Real.sqrt (bincountW (((itemUser n M).entries.map fun e => (e.1, e.2.1, g e.1 e.2.1 e.2.2)).map
        fun e => (e.1, e.2.2 ^ 2)) i) = Spec.length (Spec.column (weightRows g M) i) := by
  unfold Spec.length
  congr 1
  have hW := weightRows_nodup (g := g) hnd
  have h1 : bincountW (((itemUser n M).entries.map fun e => (e.1, e.2.1, g e.1 e.2.1 e.2.2)).map
        fun e => (e.1, e.2.2 ^ 2)) i = ((weightRows g M).map fun row => Spec.cell row i ^ 2).sum := by
    have h2 : (((itemUser n M).entries.map fun e => (e.1, e.2.1, g e.1 e.2.1 e.2.2)).map
        fun e : Nat × Nat × ℝ => (e.1, e.2.2 ^ 2)) =
        (weightRows g M).flatMap fun row => row.map fun e => (e.1, e.2 ^ 2) := by
      unfold itemUser weightRows
      simp only [List.map_flatMap, List.map_map, List.flatMap_map]
      rfl
    rw [h2, bincountW_eq_sumAt]
    revert hW
    generalize weightRows g M = W
    intro hW
    induction W with
    | nil => rfl
    | cons row W ih =>
      rw [List.flatMap_cons, sumAt_append, ih fun r hr => hW r (by simp [hr]), List.map_cons,
        List.sum_cons, sumAt_sq (hW row (by simp))]
  rw [h1, ← List.sum_ofFn]
  congr 1
  apply List.ext_getElem (by simp)
  intro u h1 h2
  simp [Spec.column]

end Implicit
