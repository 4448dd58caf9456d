import Verif.Props.C02

/-!
# C04 — filtered items are not recommended
-/

namespace Implicit

variable {R : Type} [LinearOrder R] [Field R] {f : Nat}

/-- What the code returns with `filter_already_liked_items=True` and/or `filter_items`, for every
`N ≥ 1`: first a ranking `good` of the eligible items, then (only if all eligible items are already
listed) filtered items carrying the lowest value, then `(0, 0)` cells if `N` exceeds the catalogue. -/
theorem C04_filter_answer (H : HeapImpl (R × Nat) pairLt) (neginf : R) (m : Factors f R)
    (recalc : SpRows R → Except Err (List (Vec f R)))
    (u : Nat) (x : Vec f R) (hu : m.user[u]? = some x) (hitems : m.item ≠ [])
    (liked : List (Nat × R)) (hliked : ∀ e ∈ liked, e.1 < m.item.length)
    (fi : Option PyFilter) (hfi : ∀ p, fi = some p → ∀ i ∈ p.ids, i < m.item.length)
    (hlow : ∀ y ∈ m.item, neginf < dot x y)
    (N : Nat) (hN : 1 ≤ N) :
    ∃ good rest,
      recommend H neginf m recalc (.one u) (some [liked]) N true fi false none =
        .ok (.one (good ++ rest ++ List.replicate (N - m.item.length) (0, 0))) ∧
      Spec.IsRanking N
        (fun i => i < m.item.length ∧ (∀ e ∈ liked, e.1 ≠ i) ∧ (∀ p, fi = some p → i ∉ p.ids))
        (fun i => (m.item[i]?).map (dot x)) good ∧
      (∀ p ∈ rest, ((∃ e ∈ liked, e.1 = p.1) ∨ (∃ F, fi = some F ∧ p.1 ∈ F.ids)) ∧ p.2 = neginf) ∧
      (rest ≠ [] → ∀ i, i < m.item.length → (∀ e ∈ liked, e.1 ≠ i) →
        (∀ p, fi = some p → i ∉ p.ids) → i ∈ good.map Prod.fst) ∧
      (good ++ rest).length = min N m.item.length ∧
      ((good ++ rest).map Prod.fst).Nodup := by
  set bad := badAt (likedPositions true (some [liked]) none) (fi.map PyFilter.ids) 0 with hbad
  have hmem : ∀ i, i ∈ bad ↔ (∃ e ∈ liked, e.1 = i) ∨ (∃ F, fi = some F ∧ i ∈ F.ids) := by
    intro i
    rw [hbad]
    cases fi <;> simp [badAt, likedPositions]
  have hnot : ∀ i, i ∉ bad ↔ (∀ e ∈ liked, e.1 ≠ i) ∧ (∀ p, fi = some p → i ∉ p.ids) := by
    intro i
    rw [hmem]; push Not; rfl
  obtain ⟨good, rest, e, hr, hrest, hall, hlen, hnd⟩ :=
    masked_selection H neginf hN (m.item.map (dot x)) bad (by
      intro s hs; obtain ⟨y, hy, rfl⟩ := List.mem_map.mp hs; exact hlow y hy)
  simp only [List.length_map, List.getElem?_map] at hr hrest hall hlen
  refine ⟨good, rest, ?_, ?_, ?_, ?_, hlen, hnd⟩
  · refine recommend_one H neginf (s := mask neginf bad (m.item.map (dot x))) rfl
      (userFactor_stored hu) rfl hN hitems ?_ ?_
    · rw [maskedRow_eq neginf rfl]
      constructor
      · intro rows hrows
        simp [likedPositions] at hrows
        subst hrows
        refine ⟨liked.map Prod.fst, by simp, ?_⟩
        intro i hi
        obtain ⟨e, he, rfl⟩ := List.mem_map.mp hi
        simpa using hliked e he
      · intro l hl
        cases fi with
        | none => simp at hl
        | some p =>
          simp at hl; subst hl
          intro i hi; simpa using hfi p rfl i hi
    · unfold remapRow padRow
      simp only
      rw [e]
      have h1 : (sel H N (mask neginf bad (m.item.map (dot x)))).length = min N m.item.length := by
        rw [← hlen, ← e, List.length_map]
      rw [h1]
      congr 3
      omega
  · have : (fun i => i < m.item.length ∧ i ∉ bad) = (fun i => i < m.item.length ∧
        (∀ e ∈ liked, e.1 ≠ i) ∧ (∀ p, fi = some p → i ∉ p.ids)) := by
      funext i; rw [hnot]
    rw [← this]; exact hr
  · intro p hp
    obtain ⟨h1, _, h3⟩ := hrest p hp
    exact ⟨(hmem _).mp h1, h3⟩
  · intro hne i hi h1 h2
    exact hall hne i hi ((hnot i).mpr ⟨h1, h2⟩)

omit [Field R] in
/-- If at least `N` ids are eligible a ranking has exactly `N` entries. -/
theorem ranking_card {N n : Nat} {elig : Nat → Prop} [DecidablePred elig] {score : Nat → Option R}
    {good : List (Nat × R)} (h : Spec.IsRanking N elig score good)
    (hcard : N ≤ ((List.range n).filter (fun i => decide (elig i))).length) : good.length = N := by
  by_contra hne
  have hlt : good.length < N := lt_of_le_of_ne h.atMost hne
  have hall := h.complete hlt
  have hsub : ((List.range n).filter (fun i => decide (elig i))) ⊆ good.map Prod.fst := by
    intro i hi
    have := (List.mem_filter.mp hi).2
    exact hall i (by simpa using this)
  have := (List.subperm_of_subset (List.nodup_range.filter _) hsub).length_le
  rw [List.length_map] at this
  omega

/-- **C04** when at least `N` eligible items exist: no liked and no filtered item is returned; the
answer is exactly a ranking of the `N` best eligible items. -/
theorem C04_filter_partial (H : HeapImpl (R × Nat) pairLt) (neginf : R) (m : Factors f R)
    (recalc : SpRows R → Except Err (List (Vec f R)))
    (u : Nat) (x : Vec f R) (hu : m.user[u]? = some x)
    (liked : List (Nat × R)) (hliked : ∀ e ∈ liked, e.1 < m.item.length)
    (F : List Nat) (hF : ∀ i ∈ F, i < m.item.length)
    (hlow : ∀ y ∈ m.item, neginf < dot x y)
    (N : Nat) (hN : 1 ≤ N)
    (hcard : N ≤ ((List.range m.item.length).filter
      (fun i => decide (i ∉ liked.map Prod.fst ∧ i ∉ F))).length) :
    ∃ out, recommend H neginf m recalc (.one u) (some [liked]) N true (some (.array F)) false none =
        .ok (.one out) ∧ out.length = N ∧
      (∀ p ∈ out, p.1 ∉ liked.map Prod.fst ∧ p.1 ∉ F) ∧
      Spec.IsRanking N (fun i => i < m.item.length ∧ i ∉ liked.map Prod.fst ∧ i ∉ F)
        (fun i => (m.item[i]?).map (dot x)) out := by
  have hN' : N ≤ m.item.length := le_trans hcard (by
    simpa using List.length_filter_le (fun i => decide (i ∉ liked.map Prod.fst ∧ i ∉ F))
      (List.range m.item.length))
  have hitems : m.item ≠ [] := by intro h; rw [h] at hN'; simp at hN'; omega
  obtain ⟨good, rest, e, hr, hrest, hall, hlen, hnd⟩ :=
    C04_filter_answer H neginf m recalc u x hu hitems liked hliked (some (.array F))
      (by intro p hp; cases hp; exact hF) hlow N hN
  have helig : (fun i => i < m.item.length ∧ (∀ e ∈ liked, e.1 ≠ i) ∧
      (∀ p, some (PyFilter.array F) = some p → i ∉ p.ids)) =
      (fun i => i < m.item.length ∧ i ∉ liked.map Prod.fst ∧ i ∉ F) := by
    funext i
    simp only [List.mem_map, not_exists, not_and, Option.some.injEq, forall_eq', PyFilter.ids]
  rw [helig] at hr
  have hgl : good.length = N := by
    refine ranking_card (n := m.item.length) hr ?_
    refine le_trans hcard (le_of_eq ?_)
    congr 1
    apply List.filter_congr
    intro i hi
    simp [List.mem_range.mp hi]
  have hrestnil : rest = [] := by
    rw [List.length_append, Nat.min_eq_left hN'] at hlen
    apply List.length_eq_zero_iff.mp; omega
  subst hrestnil
  refine ⟨good, ?_, hgl, ?_, hr⟩
  · rw [e]
    have : N - m.item.length = 0 := by omega
    simp [this]
  · intro p hp
    exact (hr.mem p hp).1.2

/-- Three items, user 0 has liked items 0 and 1. -/
def c04Model : Factors 1 Rat := ⟨[![1]], [![1], ![2], ![3]]⟩

/-- **C04 is violated** when fewer than `N` unfiltered items remain: liked items come back (with the
lowest value as their score), and when `N` exceeds the catalogue a liked item 0 comes back with
score 0. -/
theorem C04_filter_violated (H : HeapImpl (Rat × Nat) pairLt) :
    recommend H (-1000) c04Model noRecalc (.one 0) (some [[(0, 1), (1, 1)]]) 2 true none false none =
      .ok (.one [(2, 3), (1, -1000)]) ∧
    recommend H (-1000) c04Model noRecalc (.one 0) (some [[(0, 1), (1, 1)]]) 4 true none false none =
      .ok (.one [(2, 3), (1, -1000), (0, -1000), (0, 0)]) := by
  have hm : maskedRow (-1000) c04Model.item none
      (likedPositions true (some [[(0, (1 : Rat)), (1, 1)]]) none) (Option.map PyFilter.ids none) 0
      ![1] = .ok [-1000, -1000, 3] := by
    simp [maskedRow, scoreRow, likedPositions, c04Model, dot, bind, Except.bind, pure, Except.pure,
      assignAt]
  constructor
  · refine recommend_one H _ (s := [-1000, -1000, 3]) (x := ![1]) rfl (userFactor_stored rfl) rfl
      (by omega) (by simp [c04Model]) hm ?_
    have : sel H 2 [(-1000 : Rat), -1000, 3] = sel insertionHeap 2 [(-1000 : Rat), -1000, 3] := by
      unfold sel; rw [C01_select_heap_independent H insertionHeap]
    rw [this]
    have : sel insertionHeap 2 [(-1000 : Rat), -1000, 3] = [(3, 2), (-1000, 1)] := by decide +kernel
    rw [this]; rfl
  · refine recommend_one H _ (s := [-1000, -1000, 3]) (x := ![1]) rfl (userFactor_stored rfl) rfl
      (by omega) (by simp [c04Model]) hm ?_
    have : sel H 4 [(-1000 : Rat), -1000, 3] = sel insertionHeap 4 [(-1000 : Rat), -1000, 3] := by
      unfold sel; rw [C01_select_heap_independent H insertionHeap]
    rw [this]
    have : sel insertionHeap 4 [(-1000 : Rat), -1000, 3] = [(3, 2), (-1000, 1), (-1000, 0)] := by
      decide +kernel
    rw [this]; rfl

/-- The hypotheses of `C04_filter_partial` are met by a concrete model: one liked and one filtered
item out of three, `N = 1`. -/
example : c04Model.user[0]? = some ![1] ∧ (∀ y ∈ c04Model.item, (-1000 : Rat) < dot ![1] y) ∧
    1 ≤ ((List.range c04Model.item.length).filter
      (fun i => decide (i ∉ [((0 : Nat), (1 : Rat))].map Prod.fst ∧ i ∉ [1]))).length := by
  refine ⟨rfl, ?_, by simp [c04Model, List.range_succ]⟩
  intro y hy
  simp [c04Model] at hy
  rcases hy with rfl | rfl | rfl <;> norm_num [dot]

/-- **Models without `recalculate_user`** (BPR and LMF keep the method of the base class): `recommend(recalculate_user=True)` gives no
answer.  It raises `NotImplementedError` if `user_items` has a row for every user, and `ValueError` if not. -/
theorem C04_no_recalculation (H : HeapImpl (R × Nat) pairLt) (neginf : R) (m : Factors f R) (userid : Ids)
    (userItems : Option (SpRows R)) (N : Nat) (fl : Bool) (fi : Option PyFilter) (items : Option (List Int)) :
    recommend H neginf m noRecalc userid userItems N fl fi true items =
      .error (if (userItems.map List.length) = some userid.count then .notImplemented else .valueError) := by
  unfold recommend checkUserItems
  cases userItems with
  | none => simp [bind, Except.bind]
  | some rows =>
    by_cases h : rows.length = userid.count
    · simp [bind, Except.bind, h, userFactor, noRecalc]
    · simp [bind, Except.bind, h]

/-- The same call with and without the flag. -/
example :
    let m : Factors 1 Rat := ⟨[![1]], [![3], ![2]]⟩
    recommend insertionHeap (-100) m noRecalc (.one 0) (some [[]]) 1 false none true none = .error .notImplemented ∧
      recommend insertionHeap (-100) m noRecalc (.one 0) (some [[]]) 1 false none false none = .ok (.one [(0, 3)]) := by
  decide +kernel

end Implicit
