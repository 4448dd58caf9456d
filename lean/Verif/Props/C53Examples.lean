import Verif.Props.C45Entry
import Verif.Props.C53
import Verif.Props.C71
/-!
# C45, C53, C71: the assumptions on the device can be met

`selTest` selects as RAFT is assumed to; the theorems are applied to small models with all their assumptions.
-/

namespace Implicit

theorem selTest_selects (l : List Rat) (k : Nat) (hk : k ≤ l.length) : Spec.IsSelection k l (selTest l k) := by
  have htotal : ∀ a b : Rat × Nat, b.1 ≤ a.1 ∨ a.1 ≤ b.1 := fun a b => le_total _ _
  generalize hs : (l.mapIdx fun i s => (s, i)).insertionSort (fun a b => b.1 ≤ a.1) = s
  have hperm : s.Perm (l.mapIdx fun i s => (s, i)) := hs ▸ List.perm_insertionSort _ _
  have hsorted : s.Pairwise fun a b => b.1 ≤ a.1 := by
    have : Std.Total (fun a b : Rat × Nat => b.1 ≤ a.1) := ⟨fun a b => le_total _ _⟩
    have : IsTrans (Rat × Nat) (fun a b => b.1 ≤ a.1) := ⟨fun a b c h1 h2 => le_trans h2 h1⟩
    exact hs ▸ List.pairwise_insertionSort _ _
  have e : selTest l k = s.take k := by rw [← hs]; rfl
  have hmem : ∀ p, p ∈ s ↔ l[p.2]? = some p.1 := by
    intro p
    rw [hperm.mem_iff, List.mem_iff_getElem?]
    simp only [List.getElem?_mapIdx]
    constructor
    · rintro ⟨i, hi⟩
      cases h : l[i]? with
      | none => rw [h] at hi; cases hi
      | some v =>
        rw [h] at hi
        simp only [Option.map_some, Option.some.injEq] at hi
        rw [← hi]
        exact h
    · intro h
      exact ⟨p.2, by rw [h]; rfl⟩
  have hids : (s.map Prod.snd).Nodup := by
    rw [(hperm.map Prod.snd).nodup_iff]
    have : (l.mapIdx fun i s => (s, i)).map Prod.snd = List.range l.length := by
      apply List.ext_getElem <;> simp
    rw [this]
    exact List.nodup_range
  have hlen : s.length = l.length := by simpa using hperm.length_eq
  rw [e]
  refine ⟨by simp [hlen, hk], fun p hp => (hmem p).mp (List.mem_of_mem_take hp), ?_, ?_, hsorted.sublist (List.take_sublist _ _)⟩
  · rw [List.map_take]
    exact hids.sublist (List.take_sublist _ _)
  · intro p hp j v hv hj
    have hin : (v, j) ∈ s := (hmem (v, j)).mpr hv
    rw [← List.take_append_drop k s, List.mem_append] at hin
    rcases hin with h | h
    · exact absurd (List.mem_map_of_mem (f := Prod.snd) h) hj
    · have := hsorted
      rw [← List.take_append_drop k s, List.pairwise_append] at this
      exact this.2.2 p hp (v, j) h

theorem testEnv_selects : testEnv.Selects := selTest_selects

/-- Scores above the device's value for filtered items, from finitely many cases. -/
theorem low_of_all {low : Rat} {factors queries : List (Vec 1 Rat)} {norms : List Rat}
    (h : ∀ x ∈ queries, ∀ y ∈ factors, ∀ n ∈ norms, low < dot x y / n) (x : Vec 1 Rat) (hx : x ∈ queries) (j : Nat) (y : Vec 1 Rat) (nj : Rat)
    (h1 : factors[j]? = some y) (h2 : norms[j]? = some nj) : low < dot x y / nj :=
  h x hx y (List.mem_of_getElem? h1) nj (List.mem_of_getElem? h2)

example := C45_rows_partial selTest (-100) 2000 (fun _ => (7, 7)) (fun _ => 9) qTest 2 _ selTest_selects rfl (by decide)
  (by decide) (by decide)

/-- Two users, their items and item 1 filtered. -/
example := C53_recommend_partial testEnv testEnv_selects testFactors noRecalc [1, 0] (by decide) (by decide) [[(0, 1)], [(2, 1)]] rfl true
  (by decide) (some (.list [1])) (by simp [PyFilter.ids]) (by simp [PyFilter.ids, testFactors]) (by decide +kernel) 1 le_rfl (by decide) (by decide)

example := C53_recommend_one_partial testEnv testEnv_selects testFactors noRecalc 1 ![-1] rfl [(0, 1)] true (by decide)
  (some (.list [1])) (by simp [PyFilter.ids]) (by simp [PyFilter.ids, testFactors]) (by decide +kernel) 2 (by decide) (by decide) (by decide)

/-- User factors recalculated to 2 and -3. -/
example := C53_recalculate_partial testEnv testEnv_selects testFactors (fun _ => .ok [![2], ![-3]]) [1, 0] [[(0, 1)], [(2, 1)]] rfl
  ⟨_, List.mem_cons_self, by simp⟩ [![2], ![-3]] rfl rfl true (by decide) (by decide +kernel) 2 (by decide) (by decide) (by decide)

example := C53_items_partial testEnv testEnv_selects testFactors noRecalc [1, 0] (by decide) (by decide) [[(0, 1)], [(2, 1)]] rfl true
  (by decide +kernel) [2, 0] (by decide) (by decide) (by decide) (by decide +kernel) 5 (by decide)

example := C53_similar_partial testEnv testEnv_selects [![1], ![-1], ![2]] [1, 1, 2] rfl (by decide +kernel) [0, 2] (by decide) (by decide)
  (some (.list [0])) (by simp [PyFilter.ids]) (by simp [PyFilter.ids])
  (low_of_all (by decide +kernel)) 2 (by decide) (by decide) (by decide)

example := C53_similar_one_partial testEnv testEnv_selects [![1], ![-1], ![2]] [1, 1, 2] rfl (by decide +kernel) 2 ![2] rfl 2 rfl
  (some (.list [0])) (by simp [PyFilter.ids]) (by simp [PyFilter.ids])
  (low_of_all (queries := [![2]]) (by decide +kernel) _ (by simp)) 2 (by decide) (by decide) (by decide)

example := C53_similar_items_partial testEnv testEnv_selects [![1], ![-1], ![2]] [1, 1, 2] rfl (by decide +kernel) [0, 2] (by decide) (by decide)
  [2, 1] (by decide) (by decide) (low_of_all (by decide +kernel)) 2 (by decide) (by decide) (by decide)

/-- The factors of two items, recalculated. -/
example := C53_similar_recalculated_partial testEnv testEnv_selects [![1], ![-1], ![2]] [1, 1, 2] rfl (by decide +kernel) [0, 2] (by decide)
  (fun _ => .ok [![3], ![-2]]) [[(0, 1)], [(0, -3), (1, 2)]] ⟨_, List.mem_cons_self, by simp⟩ [![3], ![-2]] rfl rfl
  (some (.list [0])) (by simp [PyFilter.ids]) (by simp [PyFilter.ids])
  (low_of_all (by decide +kernel)) 2 (by decide) (by decide) (by decide)

example := C53_agrees_partial testEnv testEnv_selects insertionHeap (-1000) testFactors noRecalc noRecalc 1 ![-1] rfl [(0, 1)] (by decide)
  [1] (by decide) (by decide) (by decide +kernel) (by decide +kernel) 1 le_rfl (by decide) (by decide)

example := C53_agrees_items_partial testEnv testEnv_selects insertionHeap (-1000) testFactors noRecalc noRecalc 1 ![-1] rfl [2, 0] (by decide)
  (by decide) [(0, 1)] (by decide +kernel) (by decide +kernel) (by decide +kernel) 1 le_rfl (by decide) (by decide)

example := C53_agrees_similar_partial testEnv testEnv_selects insertionHeap (-1000) [![1], ![-1], ![2]] [1, 1, 2] rfl (by decide +kernel) 2 ![2] rfl 2 rfl
  [0] (by decide) (by decide) (low_of_all (queries := [![2]]) (by decide +kernel) _ (by simp))
  (low_of_all (queries := [![2]]) (by decide +kernel) _ (by simp)) 2 (by decide) (by decide) (by decide)

/-- A user that does not exist, a list of them that is empty, a matrix with one row too many, an item that does not exist. -/
example :
    gpuRecommend testEnv testFactors noRecalc (.one 2) (some [[(0, 1)]]) 1 true none false none = .error .valueError ∧
    gpuRecommend testEnv testFactors noRecalc (.many []) (some []) 1 true none false none = .error .indexError ∧
    gpuRecommend testEnv testFactors noRecalc (.many [0, 1]) (some [[], [], []]) 1 true none false none = .error .valueError ∧
    gpuRecommend testEnv testFactors noRecalc (.one 0) (some [[]]) 1 true none false (some [0, 3]) = .error .indexError :=
  have h := C53_errors testEnv testFactors noRecalc 1 true none
  ⟨h.1 2 _ _ (by decide), h.2.1 _ _ _ rfl (.inl rfl), h.2.2.1 _ _ _ _ (by decide),
    h.2.2.2 0 _ _ (by decide) (.inr ⟨3, by simp, .inr (by decide)⟩)⟩

example := C71_gpu_partial testEnv testEnv_selects testFactors noRecalc 1 ![-1] rfl [] (by simp) [1] (by decide) (by decide) (by decide +kernel)
  1 2 le_rfl (by decide) (by decide) (by decide)

end Implicit
