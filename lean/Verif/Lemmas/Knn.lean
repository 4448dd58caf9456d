import Verif.Props.C22
import Verif.Lemmas.Select
import Verif.Lemmas.Transpose
import Verif.Lemmas.TopK
import Verif.Spec.Ranking
import Mathlib.Algebra.BigOperators.Ring.List

/-!
# Products of sparse rows with the accumulator and the bounded heap
-/

set_option linter.unusedSectionVars false

namespace Implicit

section
variable {R : Type} [LinearOrder R]

/-- A top-k of the pairs (score, index) of distinct indices is a ranking of the indices. -/
theorem ranking_of_topK {K : Nat} {l : List Nat} {s : Nat → R} (hnd : l.Nodup)
    {out : List (R × Nat)} (h : Spec.IsTopK K (l.map fun i => (s i, i)) out) :
    Spec.IsRanking K (· ∈ l) (fun i => some (s i)) (out.map Prod.swap) := by
  obtain ⟨hl, ⟨rest, hp, hb⟩, hs⟩ := h
  have hfst : (out.map Prod.swap).map Prod.fst = out.map Prod.snd := by rw [List.map_map]; rfl
  have hmem : ∀ p ∈ out ++ rest, p.2 ∈ l ∧ s p.2 = p.1 := by
    intro p hp'
    obtain ⟨i, hi, rfl⟩ := List.mem_map.mp (hp.mem_iff.mpr hp')
    exact ⟨hi, rfl⟩
  have hnd' : ((out ++ rest).map Prod.snd).Nodup := by
    refine (hp.map Prod.snd).nodup_iff.mp ?_
    rw [List.map_map]
    simpa [Function.comp_def] using hnd
  have hcov : ∀ i ∈ l, (s i, i) ∈ out ∨ (s i, i) ∈ rest := fun i hi =>
    List.mem_append.mp (hp.mem_iff.mp (List.mem_map.mpr ⟨i, hi, rfl⟩))
  refine ⟨?_, ?_, ?_, ?_, ?_, ?_⟩
  · intro p hp'
    obtain ⟨q, hq, rfl⟩ := List.mem_map.mp hp'
    have := hmem q (by simp [hq])
    exact ⟨this.1, by simp [this.2]⟩
  · rw [hfst]
    rw [List.map_append] at hnd'
    exact (List.nodup_append.mp hnd').1
  · rw [List.pairwise_map]
    refine hs.imp ?_
    rintro a b (rfl | h | h)
    · exact le_refl _
    · exact h.le
    · exact h.1.ge
  · rw [List.length_map, hl]; exact min_le_left _ _
  · intro hlt i hi
    rw [List.length_map, hl] at hlt
    have hlen : out.length = (l.map fun i => (s i, i)).length := by omega
    have hrest : rest = [] := by
      have := hp.length_eq
      rw [List.length_append] at this
      exact List.length_eq_zero_iff.mp (by omega)
    rcases hcov i hi with h | h
    · rw [hfst]; exact List.mem_map.mpr ⟨_, h, rfl⟩
    · simp [hrest] at h
  · intro i v hi hv hni p hp'
    simp only [Option.some.injEq] at hv
    obtain ⟨q, hq, rfl⟩ := List.mem_map.mp hp'
    rw [hfst] at hni
    rcases hcov i hi with h | h
    · exact absurd (List.mem_map.mpr ⟨_, h, rfl⟩) hni
    · have := hb q hq _ h
      rw [← hv]; exact this

end

variable {R : Type} [LinearOrder R] [Field R]

theorem sumAt_append (a b : List (Nat × R)) (j : Nat) :
    Spec.sumAt (a ++ b) j = Spec.sumAt a j + Spec.sumAt b j := by
  induction a with
  | nil => simp [Spec.sumAt]
  | cons e a ih => simp [Spec.sumAt, ih, add_assoc]

theorem sumAt_scale (r : List (Nat × R)) (w : R) (j : Nat) :
    Spec.sumAt (r.map fun x => (x.1, x.2 * w)) j = Spec.sumAt r j * w := by
  induction r with
  | nil => simp [Spec.sumAt]
  | cons e r ih =>
    simp only [List.map_cons, Spec.sumAt, ih, add_mul, ite_mul, zero_mul]

theorem sumAt_eq_zero {es : List (Nat × R)} {j : Nat} (h : ¬ Spec.Stored es j) :
    Spec.sumAt es j = 0 := by
  induction es with
  | nil => rfl
  | cons e es ih =>
    obtain ⟨i, v⟩ := e
    unfold Spec.sumAt
    rw [ih (fun ⟨w, hw⟩ => h ⟨w, by simp [hw]⟩), if_neg, zero_add]
    rintro rfl
    exact h ⟨v, by simp⟩

/-- The additions made for a row, when all its indices exist. -/
theorem productAdds_ok (M : SpRows R) : ∀ (row : List (Nat × R)), (∀ e ∈ row, e.1 < M.length) →
    ∃ adds, productAdds M row = .ok adds ∧
      (∀ j, Spec.sumAt adds j = (row.map fun e => e.2 * Spec.cell (M.getD e.1 []) j).sum) ∧
      ∀ j, Spec.Stored adds j ↔ Spec.Reachable M row j
  | [], _ => ⟨[], rfl, by simp [Spec.sumAt], by simp [Spec.Stored, Spec.Reachable]⟩
  | e :: row, h => by
    obtain ⟨adds, e1, h1, h2⟩ := productAdds_ok M row (fun x hx => h x (by simp [hx]))
    have hlt := h e (by simp)
    have hM : M[e.1]? = some (M.getD e.1 []) := by
      rw [List.getD_eq_getElem?_getD, List.getElem?_eq_getElem hlt]; rfl
    refine ⟨_, by unfold productAdds; simp only [hM, e1]; rfl, ?_, ?_⟩
    · intro j
      rw [sumAt_append, sumAt_scale, h1, List.map_cons, List.sum_cons]
      unfold Spec.cell
      rw [mul_comm]
    · intro j
      constructor
      · rintro ⟨v, hv⟩
        rcases List.mem_append.mp hv with hv | hv
        · obtain ⟨x, hx, he⟩ := List.mem_map.mp hv
          cases he
          exact ⟨e, by simp, x.2, hx⟩
        · obtain ⟨x, hx, hr⟩ := (h2 j).mp ⟨v, hv⟩
          exact ⟨x, by simp [hx], hr⟩
      · rintro ⟨x, hx, v, hv⟩
        rcases List.mem_cons.mp hx with rfl | hx
        · exact ⟨v * x.2, List.mem_append.mpr (Or.inl (List.mem_map.mpr ⟨(j, v), hv, rfl⟩))⟩
        · obtain ⟨w, hw⟩ := (h2 j).mpr ⟨x, hx, v, hv⟩
          exact ⟨w, List.mem_append.mpr (Or.inr hw)⟩

theorem productAdds_bound (M : SpRows R) {n : Nat} (hM : ∀ r ∈ M, ∀ e ∈ r, e.1 < n)
    {row adds : List (Nat × R)} (h : productAdds M row = .ok adds) : ∀ e ∈ adds, e.1 < n := by
  induction row generalizing adds with
  | nil => cases h; simp
  | cons e row ih =>
    unfold productAdds at h
    cases hr : M[e.1]? with
    | none => rw [hr] at h; cases h
    | some r =>
      rw [hr] at h
      cases hrest : productAdds M row with
      | error e' => rw [hrest] at h; cases h
      | ok rest =>
        rw [hrest] at h
        cases h
        intro x hx
        rcases List.mem_append.mp hx with hx | hx
        · obtain ⟨y, hy, rfl⟩ := List.mem_map.mp hx
          exact hM r (List.mem_of_getElem? hr) y hy
        · exact ih hrest x hx

/-- Heap contents obtained from the accumulator after the additions `adds`. -/
theorem accum_heap (H : HeapImpl (R × Nat) pairLt) {K : Nat} (hK : 1 ≤ K) {l : List Nat}
    (hnd : l.Nodup) (s : Nat → R) :
    ∃ h, offerAll H K [] ((l.map fun i => (i, s i)).map Prod.swap) = .ok h ∧
      Spec.IsRanking K (· ∈ l) (fun i => some (s i)) ((H.sort h).map Prod.swap) ∧
      (H.sort h).Perm h ∧ h.length ≤ K := by
  obtain ⟨h, e, htop, hp⟩ := offerAll_isTopK H hK ((l.map fun i => (i, s i)).map Prod.swap)
  have hm : (l.map fun i => (i, s i)).map Prod.swap = l.map fun i => (s i, i) := by
    rw [List.map_map]; rfl
  refine ⟨h, e, ranking_of_topK hnd (hm ▸ htop), hp, ?_⟩
  rw [← hp.length_eq, htop.length]; exact min_le_left _ _

/-- One iteration of `all_pairs_knn` from a clean accumulator. -/
theorem knnRow_ok (H : HeapImpl (R × Nat) pairLt) {K : Nat} (hK : 1 ≤ K) {n : Nat} (M : SpRows R)
    (hM : ∀ r ∈ M, ∀ e ∈ r, e.1 < n) (row : List (Nat × R)) (hrow : ∀ e ∈ row, e.1 < M.length) :
    ∃ h, knnRow H K M row (Accum.new n) = .ok (h, Accum.new n) ∧ h.length ≤ K ∧
      Spec.IsRanking K (Spec.Reachable M row) (fun j => some (Spec.itemScore M row j))
        ((H.sort h).map Prod.swap) ∧ (H.sort h).Perm h := by
  obtain ⟨adds, e1, hs, hst⟩ := productAdds_ok M row hrow
  obtain ⟨a, l, e2, hrep, hlen, hmem, e3⟩ := round_ok (R := R) adds (productAdds_bound M hM e1)
  obtain ⟨h, e4, hrank, hp, hl⟩ := accum_heap H hK hrep.nodup (totalAt adds)
  refine ⟨h, ?_, hl, ?_, hp⟩
  · unfold knnRow
    rw [e1]
    simp only [bind, Except.bind, e2, e3, e4]
    rfl
  · have e1 : (fun i => some (totalAt adds i)) = fun j => some (Spec.itemScore M row j) := by
      funext j
      rw [totalAt_eq_sumAt, hs j]; rfl
    have e2 : (· ∈ l) = Spec.Reachable M row := by
      funext j
      apply propext
      rw [← hst j, hmem]
      unfold Spec.Stored
      simp
    rw [← e1, ← e2]; exact hrank

/-- A column of the matrix picks out the rows it is stored in. -/
theorem transpose_reachable {n : Nat} {M : SpRows R} {i : Nat} {col : List (Nat × R)}
    (hcol : (transposeRows n M)[i]? = some col) (j : Nat) :
    Spec.Reachable M col j ↔ Spec.CoRated M i j := by
  constructor
  · rintro ⟨⟨u, c⟩, he, hs⟩
    obtain ⟨row, hr, hc⟩ := (mem_transpose hcol).mp he
    simp only [List.getD_eq_getElem?_getD, hr, Option.getD_some] at hs
    exact ⟨row, List.mem_of_getElem? hr, ⟨c, hc⟩, hs⟩
  · rintro ⟨row, hrow, ⟨c, hc⟩, hs⟩
    obtain ⟨u, hu⟩ := List.mem_iff_getElem?.mp hrow
    refine ⟨(u, c), (mem_transpose hcol).mpr ⟨row, hu, hc⟩, ?_⟩
    simpa only [List.getD_eq_getElem?_getD, hu, Option.getD_some] using hs

theorem transpose_score {n : Nat} {M : SpRows R} {i : Nat} {col : List (Nat × R)}
    (hcol : (transposeRows n M)[i]? = some col) (j : Nat) :
    Spec.itemScore M col j = Spec.similarity M i j := by
  have hi : i < n := by
    have := (List.getElem?_eq_some_iff.mp hcol).1
    rwa [transpose_length] at this
  have hc : col = M.zipIdx.flatMap fun ru =>
      (ru.1.filter fun e => e.1 == i).map fun e => (ru.2, e.2) := by
    unfold transposeRows at hcol
    rw [List.getElem?_map, List.getElem?_range hi] at hcol
    simpa using hcol.symm
  subst hc
  unfold Spec.itemScore Spec.similarity
  rw [List.map_flatMap, List.flatMap_def, List.sum_flatten, List.map_map]
  simp only [Function.comp_def]
  have : ∀ ru ∈ M.zipIdx, (((ru.1.filter fun e => e.1 == i).map fun e => (ru.2, e.2)).map
      fun e => e.2 * Spec.cell (M.getD e.1 []) j).sum = Spec.cell ru.1 i * Spec.cell ru.1 j := by
    intro ru hru
    have hr : M.getD ru.2 [] = ru.1 := by
      rw [List.getD_eq_getElem?_getD, mem_zipIdx_iff'.mp hru]; rfl
    rw [List.map_map]
    have : ((fun e : Nat × R => e.2 * Spec.cell (M.getD e.1 []) j) ∘ fun e : Nat × R => (ru.2, e.2)) =
        fun e => e.2 * Spec.cell ru.1 j := by
      funext e; simp only [Function.comp_apply, hr]
    rw [this, List.sum_map_mul_right]
    congr 1
    unfold Spec.cell
    rw [← totalAt_eq_sumAt]; rfl
  rw [List.map_congr_left this]
  have h2 : (M.zipIdx.map fun ru => Spec.cell ru.1 i * Spec.cell ru.1 j) =
      (M.zipIdx.map Prod.fst).map fun row => Spec.cell row i * Spec.cell row j := by
    rw [List.map_map]; rfl
  rw [h2, List.zipIdx_map_fst]

end Implicit
