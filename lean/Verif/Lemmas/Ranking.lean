import Verif.Spec.Ranking
import Mathlib.Data.List.Basic
import Mathlib.Data.List.Perm.Subperm
import Mathlib.Data.List.Dedup
import Mathlib.Algebra.Order.Group.Nat

namespace Implicit

variable {R R' : Type} [LinearOrder R] [LinearOrder R']

/-- A monotone change of scores keeps a ranking. -/
theorem _root_.Implicit.Spec.IsRanking.mapScore {N : Nat} {E : Nat → Prop} {score : Nat → Option R}
    {out : List (Nat × R)} (h : Spec.IsRanking N E score out) (g : R → R')
    (hg : ∀ i j a b, E i → E j → score i = some a → score j = some b → a ≤ b → g a ≤ g b) :
    Spec.IsRanking N E (fun i => (score i).map g) (out.map fun p => (p.1, g p.2)) := by
  have hids : (out.map fun p => (p.1, g p.2)).map Prod.fst = out.map Prod.fst := by
    rw [List.map_map]; rfl
  refine ⟨?_, by rw [hids]; exact h.distinct, ?_, by simpa using h.atMost, ?_, ?_⟩
  · intro p hp
    obtain ⟨q, hq, rfl⟩ := List.mem_map.mp hp
    exact ⟨(h.mem q hq).1, by simp [(h.mem q hq).2]⟩
  · rw [List.pairwise_map]
    refine h.sorted.imp_of_mem ?_
    intro a b ha hb hab
    exact hg b.1 a.1 _ _ (h.mem b hb).1 (h.mem a ha).1 (h.mem b hb).2 (h.mem a ha).2 hab
  · intro hlt i hi
    rw [hids]
    exact h.complete (by simpa using hlt) i hi
  · intro i s hi hs hni p hp
    rw [hids] at hni
    obtain ⟨q, hq, rfl⟩ := List.mem_map.mp hp
    obtain ⟨a, ha, rfl⟩ := Option.map_eq_some_iff.mp hs
    exact hg i q.1 _ _ hi (h.mem q hq).1 ha (h.mem q hq).2 (h.best i a hi ha hni q hq)

/-- Same scores, same ranking. -/
theorem _root_.Implicit.Spec.IsRanking.congrScore {N : Nat} {E : Nat → Prop}
    {score score' : Nat → Option R} {out : List (Nat × R)} (h : Spec.IsRanking N E score out)
    (hs : ∀ i, E i → score i = score' i) : Spec.IsRanking N E score' out :=
  ⟨fun p hp => ⟨(h.mem p hp).1, by rw [← hs _ (h.mem p hp).1]; exact (h.mem p hp).2⟩, h.distinct,
    h.sorted, h.atMost, h.complete,
    fun i s hi hs' hni p hp => h.best i s hi (by rw [hs i hi]; exact hs') hni p hp⟩

/-- Few entries can be removed by a filter. -/
theorem length_filter_notMem {α : Type} (l : List (Nat × α)) (hnd : (l.map Prod.fst).Nodup)
    (F : List Nat) : l.length ≤ (l.filter fun p => !F.contains p.1).length + F.length := by
  have h1 := List.length_eq_length_filter_add (l := l) (fun p => !F.contains p.1)
  have h2 : (l.filter fun p => !(!F.contains p.1)).length ≤ F.length := by
    have hnd' : ((l.filter fun p => !(!F.contains p.1)).map Prod.fst).Nodup :=
      hnd.sublist (List.filter_sublist.map _)
    have hsub : (l.filter fun p => !(!F.contains p.1)).map Prod.fst ⊆ F := by
      intro i hi
      obtain ⟨p, hp, rfl⟩ := List.mem_map.mp hi
      simpa using (List.mem_filter.mp hp).2
    have := (hnd'.subperm hsub).length_le
    simpa using this
  omega

/-- Over-fetching by the size of the filter, removing filtered ids and cutting to `N` is a ranking of
the `N` best ids that are not filtered. -/
theorem _root_.Implicit.Spec.IsRanking.filterTake {N m : Nat} {E : Nat → Prop}
    {score : Nat → Option R} {out : List (Nat × R)} (h : Spec.IsRanking (N + m) E score out)
    {F : List Nat} (hm : F.length ≤ m) :
    Spec.IsRanking N (fun i => E i ∧ i ∉ F) score ((out.filter fun p => !F.contains p.1).take N) := by
  set keep := out.filter fun p => !F.contains p.1 with hkeep
  have hsubl : (keep.take N).Sublist out := (List.take_sublist _ _).trans List.filter_sublist
  have hkm : ∀ p ∈ keep, p ∈ out ∧ p.1 ∉ F := by
    intro p hp
    have := List.mem_filter.mp hp
    exact ⟨this.1, by simpa using this.2⟩
  have hmemk : ∀ i, i ∉ F → i ∈ out.map Prod.fst → i ∈ keep.map Prod.fst := by
    intro i hi ho
    obtain ⟨p, hp, rfl⟩ := List.mem_map.mp ho
    exact List.mem_map.mpr ⟨p, List.mem_filter.mpr ⟨hp, by simpa using hi⟩, rfl⟩
  have hks : keep.Pairwise (fun a b => b.2 ≤ a.2) := h.sorted.sublist List.filter_sublist
  refine ⟨?_, ?_, ?_, by simp, ?_, ?_⟩
  · intro p hp
    obtain ⟨h1, h2⟩ := hkm p (List.mem_of_mem_take hp)
    exact ⟨⟨(h.mem p h1).1, h2⟩, (h.mem p h1).2⟩
  · exact h.distinct.sublist (hsubl.map _)
  · exact h.sorted.sublist hsubl
  · intro hlt i hi
    have hk : keep.length < N := by simpa using hlt
    rw [List.take_of_length_le hk.le]
    have := length_filter_notMem out h.distinct F
    rw [← hkeep] at this
    exact hmemk i hi.2 (h.complete (by omega) i hi.1)
  · intro i s hi hs hni p hp
    by_cases ho : i ∈ out.map Prod.fst
    · obtain ⟨q, hq, rfl⟩ := List.mem_map.mp (hmemk i hi.2 ho)
      have hq' : q ∈ keep.drop N := by
        rw [← List.take_append_drop N keep, List.mem_append] at hq
        rcases hq with hq | hq
        · exact absurd (List.mem_map.mpr ⟨q, hq, rfl⟩) hni
        · exact hq
      have := (List.pairwise_append.mp ((List.take_append_drop N keep).symm ▸ hks)).2.2 p hp q hq'
      have hs' := (h.mem q (hkm q hq).1).2
      rw [hs'] at hs
      cases hs
      exact this
    · exact h.best i s hi.1 hs ho p (hkm p (List.mem_of_mem_take hp)).1

/-- A ranking of as many entries as there are ids lists everything. -/
theorem _root_.Implicit.Spec.IsRanking.all {n : Nat} {E : Nat → Prop} {score : Nat → Option R}
    {out : List (Nat × R)} (h : Spec.IsRanking n E score out) (hE : ∀ i, E i → i < n) :
    ∀ i, E i → i ∈ out.map Prod.fst := by
  intro i hi
  rcases Nat.lt_or_ge out.length n with hlt | hge
  · exact h.complete hlt i hi
  · by_contra hni
    have hsub : (i :: out.map Prod.fst) ⊆ List.range n := by
      intro j hj
      rcases List.mem_cons.mp hj with rfl | hj
      · exact List.mem_range.mpr (hE j hi)
      · obtain ⟨p, hp, rfl⟩ := List.mem_map.mp hj
        exact List.mem_range.mpr (hE _ (h.mem p hp).1)
    have := ((List.nodup_cons.mpr ⟨hni, h.distinct⟩).subperm hsub).length_le
    simp at this
    omega

/-- Cutting a ranking. -/
theorem _root_.Implicit.Spec.IsRanking.take {N M : Nat} {E : Nat → Prop} {score : Nat → Option R}
    {out : List (Nat × R)} (h : Spec.IsRanking M E score out) (hNM : N ≤ M) :
    Spec.IsRanking N E score (out.take N) := by
  have := Spec.IsRanking.filterTake (N := N) (m := M - N) (F := []) (out := out) (E := E)
    (score := score) (by rw [Nat.add_sub_cancel' hNM]; exact h) (by simp)
  simp only [List.not_mem_nil, not_false_eq_true, and_true] at this
  have e : (out.filter fun p => !([] : List Nat).contains p.1) = out := by
    rw [List.filter_eq_self]; simp
  rwa [e] at this

/-- The eligible entries of a complete ranking. -/
theorem _root_.Implicit.Spec.IsRanking.restrict {n : Nat} {E P : Nat → Prop} [DecidablePred P]
    {score : Nat → Option R} {out : List (Nat × R)} (h : Spec.IsRanking n E score out)
    (hall : ∀ i, E i → i ∈ out.map Prod.fst) :
    Spec.IsRanking n (fun i => E i ∧ P i) score (out.filter fun p => decide (P p.1)) := by
  have hmem : ∀ i, E i → P i → i ∈ (out.filter fun p => decide (P p.1)).map Prod.fst := by
    intro i hi hP
    obtain ⟨p, hp, rfl⟩ := List.mem_map.mp (hall i hi)
    exact List.mem_map.mpr ⟨p, List.mem_filter.mpr ⟨hp, by simpa using hP⟩, rfl⟩
  refine ⟨?_, h.distinct.sublist (List.filter_sublist.map _), h.sorted.sublist List.filter_sublist,
    le_trans (List.length_filter_le _ _) h.atMost, fun _ i hi => hmem i hi.1 hi.2, ?_⟩
  · intro p hp
    obtain ⟨h1, h2⟩ := List.mem_filter.mp hp
    exact ⟨⟨(h.mem p h1).1, by simpa using h2⟩, (h.mem p h1).2⟩
  · intro i s hi _ hni
    exact absurd (hmem i hi.1 hi.2) hni

end Implicit
