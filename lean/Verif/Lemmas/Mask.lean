import Verif.Lemmas.TopK
import Verif.Spec.Ranking

set_option linter.unusedSectionVars false

namespace Implicit

variable {R : Type} [LinearOrder R]

/-- Scores with the positions `bad` overwritten by `v`. -/
def mask (v : R) (bad : List Nat) (row : List R) : List R :=
  row.mapIdx fun j s => if j ∈ bad then v else s

theorem mask_nil (v : R) (row : List R) : mask v [] row = row := by
  apply List.ext_getElem? ; intro i; simp [mask]

theorem length_mask (v : R) (bad : List Nat) (row : List R) : (mask v bad row).length = row.length := by
  simp [mask]

theorem getElem?_mask (v : R) (bad : List Nat) (row : List R) (j : Nat) :
    (mask v bad row)[j]? = row[j]?.map fun s => if j ∈ bad then v else s := by
  simp [mask, List.getElem?_mapIdx]

theorem mask_mask (v : R) (a b : List Nat) (row : List R) :
    mask v b (mask v a row) = mask v (a ++ b) row := by
  apply List.ext_getElem?
  intro j
  simp only [getElem?_mask, Option.map_map]
  congr 1
  funext s
  simp only [Function.comp, List.mem_append]
  by_cases h1 : j ∈ a <;> by_cases h2 : j ∈ b <;> simp [h1, h2]

theorem assignAt_ok (v : R) : ∀ (is : List Nat) (row : List R), (∀ i ∈ is, i < row.length) →
    assignAt v is row = .ok (mask v is row)
  | [], row, _ => by rw [mask_nil]; rfl
  | i :: is, row, h => by
    unfold assignAt
    rw [if_pos (h i (by simp)), assignAt_ok v is _ (fun j hj => by
      simpa using h j (by simp [hj]))]
    congr 1
    apply List.ext_getElem?
    intro j
    rw [getElem?_mask, getElem?_mask, List.getElem?_set]
    by_cases hji : i = j
    · subst hji
      have := h i (by simp)
      simp [this]
    · have : ¬ j = i := fun h => hji h.symm
      simp [hji, this]

theorem assignAt_ok_iff (v : R) : ∀ (is : List Nat) (row r' : List R), assignAt v is row = .ok r' →
    ∀ i ∈ is, i < row.length
  | [], _, _, _ => by simp
  | i :: is, row, r', h => by
    unfold assignAt at h
    split_ifs at h with hi
    intro j hj
    rcases List.mem_cons.mp hj with rfl | hj
    · exact hi
    · simpa using assignAt_ok_iff v is _ r' h j hj

theorem split_of_pairwise {α : Type*} (p : α → Bool) : ∀ (l : List α),
    l.Pairwise (fun a b => p b = true → p a = true) →
    l = l.filter p ++ l.filter (fun a => !p a)
  | [], _ => rfl
  | a :: l, h => by
    have hp := List.pairwise_cons.mp h
    have ih := split_of_pairwise p l hp.2
    by_cases ha : p a = true
    · rw [List.filter_cons_of_pos ha, List.filter_cons_of_neg (by simp [ha]), List.cons_append,
        ← ih]
    · have hnone : l.filter p = [] := by
        rw [List.filter_eq_nil_iff]
        intro b hb hpb
        exact ha (hp.1 b hb hpb)
      rw [List.filter_cons_of_neg ha, List.filter_cons_of_pos (by simp [ha]), hnone, List.nil_append]
      rw [hnone, List.nil_append] at ih
      rw [← ih]

/-- Selection from masked scores: the unmasked positions ranked first, then masked ones at the
lowest value. -/
theorem masked_selection (H : HeapImpl (R × Nat) pairLt) (v : R) {k : Nat} (hk : 1 ≤ k)
    (scores : List R) (bad : List Nat) (hv : ∀ s ∈ scores, v < s) :
    ∃ good rest : List (Nat × R),
      (sel H k (mask v bad scores)).map Prod.swap = good ++ rest ∧
      Spec.IsRanking k (fun j => j < scores.length ∧ j ∉ bad) (fun j => scores[j]?) good ∧
      (∀ p ∈ rest, p.1 ∈ bad ∧ p.1 < scores.length ∧ p.2 = v) ∧
      (rest ≠ [] → ∀ j, j < scores.length → j ∉ bad → j ∈ good.map Prod.fst) ∧
      (good ++ rest).length = min k scores.length ∧
      ((good ++ rest).map Prod.fst).Nodup := by
  set S := mask v bad scores with hSdef
  have htop := sel_topk H hk S
  set out := sel H k S with hout
  have hSlen : S.length = scores.length := length_mask _ _ _
  -- facts about single entries
  have hgood : ∀ p ∈ out, p.2 ∉ bad → scores[p.2]? = some p.1 := by
    intro p hp hb
    have := htop.faithful p hp
    rw [hSdef, getElem?_mask] at this
    simpa [hb] using this
  have hbad : ∀ p ∈ out, p.2 ∈ bad → p.1 = v ∧ p.2 < scores.length := by
    intro p hp hb
    have := htop.faithful p hp
    rw [hSdef, getElem?_mask] at this
    simp only [hb, if_true] at this
    cases hs : scores[p.2]? with
    | none => rw [hs] at this; cases this
    | some s =>
      rw [hs] at this
      simp at this
      exact ⟨this.symm, (List.getElem?_eq_some_iff.mp hs).1⟩
  have hgt : ∀ p ∈ out, p.2 ∉ bad → v < p.1 := by
    intro p hp hb
    exact hv _ (List.mem_of_getElem? (hgood p hp hb))
  have hsplit := split_of_pairwise (fun p : R × Nat => !decide (p.2 ∈ bad)) out (by
    refine List.Pairwise.imp_of_mem ?_ htop.sorted
    intro a b ha hb hbef hpb
    simp only [Bool.not_eq_true', decide_eq_false_iff_not] at hpb ⊢
    intro hab
    have h1 := (hbad a ha hab).1
    have h2 := hgt b hb hpb
    rcases hbef with h3 | h3
    · rw [h1] at h3; exact absurd (lt_trans h2 h3) (lt_irrefl _)
    · rw [← h3.1, h1] at h2; exact absurd h2 (lt_irrefl _))
  set g := out.filter (fun p : R × Nat => !decide (p.2 ∈ bad)) with hg
  set b := out.filter (fun p : R × Nat => !!decide (p.2 ∈ bad)) with hb
  have hgm : ∀ p, p ∈ g ↔ p ∈ out ∧ p.2 ∉ bad := by intro p; simp [hg, List.mem_filter]
  have hbm : ∀ p, p ∈ b ↔ p ∈ out ∧ p.2 ∈ bad := by intro p; simp [hb, List.mem_filter]
  have hfst : ∀ l : List (R × Nat), (l.map Prod.swap).map Prod.fst = l.map Prod.snd := by
    intro l; rw [List.map_map]; rfl
  have hgids : ∀ j, j ∉ bad → j ∈ out.map Prod.snd → j ∈ (g.map Prod.swap).map Prod.fst := by
    intro j hj hm
    rw [hfst]
    obtain ⟨p, hp, rfl⟩ := List.mem_map.mp hm
    exact List.mem_map_of_mem ((hgm p).mpr ⟨hp, hj⟩)
  have hnd : (out.map Prod.snd).Nodup := htop.distinct
  have hall : out.length < min k scores.length + 1 := by rw [htop.length, hSlen]; omega
  -- a non-full list contains every position
  have hcomplete : out.length < k → ∀ j, j < scores.length → j ∈ out.map Prod.snd := by
    intro hlt j hj
    by_contra hnot
    have hlen : out.length = scores.length := by
      have := htop.length; rw [hSlen] at this; omega
    have hsub : (out.map Prod.snd) ⊆ (List.range scores.length).erase j := by
      intro x hx
      obtain ⟨p, hp, rfl⟩ := List.mem_map.mp hx
      have h1 := htop.faithful p hp
      have h2 := (List.getElem?_eq_some_iff.mp h1).1
      rw [hSlen] at h2
      exact (List.mem_erase_of_ne (fun h : p.2 = j => hnot (by rw [← h]; exact hx))).mpr (List.mem_range.mpr h2)
    have := (List.subperm_of_subset hnd hsub).length_le
    rw [List.length_erase_of_mem (List.mem_range.mpr hj)] at this
    simp at this
    omega
  refine ⟨g.map Prod.swap, b.map Prod.swap, ?_, ⟨?_, ?_, ?_, ?_, ?_, ?_⟩, ?_, ?_, ?_, ?_⟩
  · rw [← List.map_append, ← hsplit]
  · intro p hp
    obtain ⟨q, hq, rfl⟩ := List.mem_map.mp hp
    obtain ⟨h1, h2⟩ := (hgm q).mp hq
    have h3 := hgood q h1 h2
    exact ⟨⟨(List.getElem?_eq_some_iff.mp h3).1, h2⟩, h3⟩
  · rw [hfst]
    exact hnd.sublist ((List.filter_sublist).map _)
  · rw [List.pairwise_map]
    refine (htop.sorted.sublist List.filter_sublist).imp ?_
    rintro a b (h | h)
    · exact h.le
    · exact h.1.ge
  · rw [List.length_map]
    exact le_trans (List.length_filter_le _ _) (by rw [htop.length]; exact min_le_left _ _)
  · intro hlt j hj
    apply hgids j hj.2
    by_cases hfull : out.length < k
    · exact hcomplete hfull j hj.1
    · -- then something bad was returned, hence every eligible position is better
      by_contra hnot
      have hblen : 0 < b.length := by
        have : out.length = g.length + b.length := by rw [← List.length_append, ← hsplit]
        rw [List.length_map] at hlt
        omega
      obtain ⟨p, hp⟩ := List.exists_mem_of_length_pos hblen
      obtain ⟨hp1, hp2⟩ := (hbm p).mp hp
      have hs : scores[j]? = some scores[j] := List.getElem?_eq_getElem hj.1
      have hSj : S[j]? = some scores[j] := by
        rw [hSdef, getElem?_mask, hs]; simp [hj.2]
      have := htop.best p hp1 j _ hSj hnot
      rw [(hbad p hp1 hp2).1] at this
      exact absurd (hv _ (List.getElem_mem hj.1)) (not_lt.mpr this)
  · intro j s hj hs hnot p hp
    obtain ⟨q, hq, rfl⟩ := List.mem_map.mp hp
    obtain ⟨h1, _⟩ := (hgm q).mp hq
    have hSj : S[j]? = some s := by
      rw [hSdef, getElem?_mask, hs]; simp [hj.2]
    exact htop.best q h1 j s hSj (fun h => hnot (hgids j hj.2 h))
  · intro p hp
    obtain ⟨q, hq, rfl⟩ := List.mem_map.mp hp
    obtain ⟨h1, h2⟩ := (hbm q).mp hq
    exact ⟨h2, (hbad q h1 h2).2, (hbad q h1 h2).1⟩
  · intro hne j hj hjb
    apply hgids j hjb
    by_contra hnot
    obtain ⟨p', hp'⟩ := List.exists_mem_of_ne_nil _ hne
    obtain ⟨p, hp, rfl⟩ := List.mem_map.mp hp'
    obtain ⟨hp1, hp2⟩ := (hbm p).mp hp
    have hs : scores[j]? = some scores[j] := List.getElem?_eq_getElem hj
    have hSj : S[j]? = some scores[j] := by
      rw [hSdef, getElem?_mask, hs]; simp [hjb]
    have := htop.best p hp1 j _ hSj hnot
    rw [(hbad p hp1 hp2).1] at this
    exact absurd (hv _ (List.getElem_mem hj)) (not_lt.mpr this)
  · rw [← List.map_append, ← hsplit, List.length_map, htop.length, hSlen]
  · rw [← List.map_append, ← hsplit, hfst]; exact hnd

end Implicit
