import Verif.Lemmas.Items
import Verif.Props.C04

/-!
# C05 — `items=S` ranks exactly `S`, and the liked-items filter still applies after renumbering
-/

namespace Implicit

variable {R : Type} [LinearOrder R] [Field R] {f : Nat}

/-- The liked-items filter as the user understands it: off, or `i` is not stored in the user's row. -/
def notLiked (filterLiked : Bool) (liked : List (Nat × R)) (i : Nat) : Prop :=
  filterLiked = true → ∀ e ∈ liked, e.1 ≠ i

/-- What the code returns for `items=S` (distinct valid ids) and every `N ≥ 1`: a ranking `good` of
the members of `S` that are not liked, then (only when all of those are already listed) liked members
of `S` at the lowest value; in total `min N |S|` distinct ids. -/
theorem C05_items_answer (H : HeapImpl (R × Nat) pairLt) (neginf : R) (m : Factors f R)
    (recalc : SpRows R → Except Err (List (Vec f R)))
    (u : Nat) (x : Vec f R) (hu : m.user[u]? = some x)
    (S : List Int) (hne : S ≠ []) (hnd : S.Nodup) (hS : ∀ i ∈ S, 0 ≤ i ∧ i < m.item.length)
    (fl : Bool) (liked : List (Nat × R)) (hnz : ∀ e ∈ liked, e.2 ≠ 0)
    (hlow : ∀ y ∈ m.item, neginf < dot x y) (N : Nat) (hN : 1 ≤ N) :
    ∃ good rest,
      recommend H neginf m recalc (.one u) (some [liked]) N fl none false (some S) =
        .ok (.one (good ++ rest)) ∧
      Spec.IsRanking (min N S.length) (fun i => (i : Int) ∈ S ∧ notLiked fl liked i)
        (fun i => (m.item[i]?).map (dot x)) good ∧
      (∀ p ∈ rest, (p.1 : Int) ∈ S ∧ fl = true ∧ (∃ e ∈ liked, e.1 = p.1) ∧ p.2 = neginf) ∧
      (rest ≠ [] → ∀ i : Nat, (i : Int) ∈ S → notLiked fl liked i → i ∈ good.map Prod.fst) ∧
      (good ++ rest).length = min N S.length ∧
      ((good ++ rest).map Prod.fst).Nodup := by
  have hpos : ∀ i ∈ S, (0 : Int) ≤ i := fun i hi => (hS i hi).1
  obtain ⟨fac, hres, hflen, hfac⟩ := restrictItems_ok (m := m) (N := N) (fi := none) rfl hne hS
  set its := sortedIds S with hits
  have hstrict : its.Pairwise (· < ·) := sortedIds_strict hnd hpos
  have hitsnd : its.Nodup := hstrict.imp (fun h => Nat.ne_of_lt h)
  have hitslen : its.length = S.length := length_sortedIds S
  have hSl : 1 ≤ S.length := List.length_pos_iff.mpr hne
  have hN' : 1 ≤ min N S.length := by omega
  have hfacne : fac ≠ [] := by
    intro h; rw [h] at hflen; simp at hflen; omega
  set bad := badAt (likedPositions fl (some [liked]) (some its)) (Option.map PyFilter.ids none) 0
    with hbad
  have hmem : ∀ j, j ∈ bad ↔ fl = true ∧ ∃ e ∈ liked, its[j]? = some e.1 := by
    intro j
    have : bad = if fl then (filterItemsRow its liked).map Prod.fst else [] := by
      rw [hbad]; cases fl <;> simp [badAt, likedPositions]
    rw [this]
    cases fl
    · simp
    · simp only [if_true, true_and]
      rw [mem_filterItemsRow hstrict]
      constructor
      · rintro ⟨e, he, _, h⟩; exact ⟨e, he, h⟩
      · rintro ⟨e, he, h⟩; exact ⟨e, he, hnz e he, h⟩
  have hbadlt : ∀ j ∈ bad, j < its.length := by
    intro j hj
    obtain ⟨_, e, _, h⟩ := (hmem j).mp hj
    exact (List.getElem?_eq_some_iff.mp h).1
  have hfacmem : ∀ y ∈ fac, y ∈ m.item := by
    intro y hy
    obtain ⟨j, hj, rfl⟩ := List.getElem_of_mem hy
    obtain ⟨y', h1, h2⟩ := hfac j its[j] (List.getElem?_eq_getElem (by omega))
    rw [List.getElem?_eq_getElem hj] at h2
    cases h2
    exact List.mem_of_getElem? h1
  obtain ⟨good, rest, e, hr, hrest, hall, hlen, hndp⟩ :=
    masked_selection H neginf hN' (fac.map (dot x)) bad (by
      intro s hs; obtain ⟨y, hy, rfl⟩ := List.mem_map.mp hs; exact hlow y (hfacmem y hy))
  simp only [List.length_map, List.getElem?_map] at hr hrest hall hlen
  have hltall : ∀ p ∈ good ++ rest, p.1 < its.length := by
    intro p hp
    rcases List.mem_append.mp hp with hp | hp
    · have := (hr.mem p hp).1.1; omega
    · have := (hrest p hp).2.1; omega
  have hgetall : ∀ p ∈ good ++ rest, its[p.1]? = some (its[p.1]?.getD 0) := by
    intro p hp
    rw [List.getElem?_eq_getElem (hltall p hp)]; rfl
  have hin : ∀ j i : Nat, its[j]? = some i → (i : Int) ∈ S := by
    intro j i h
    exact (mem_sortedIds hpos).mp (List.mem_of_getElem? h)
  have hout : ∀ i : Nat, (i : Int) ∈ S → ∃ j : Nat, its[j]? = some i := by
    intro i hi
    exact List.mem_iff_getElem?.mp ((mem_sortedIds hpos).mpr hi)
  have hbn : ∀ j i : Nat, its[j]? = some i → (j ∉ bad ↔ notLiked fl liked i) := by
    intro j i h
    rw [hmem, h]
    unfold notLiked
    simp only [Option.some.injEq, not_and, not_exists]
    constructor
    · intro h1 h2 e he he'; exact h1 h2 e he he'.symm
    · intro h1 h2 e he he'; exact h1 h2 e he he'.symm
  refine ⟨rename its good, rename its rest, ?_, ?_, ?_, ?_, ?_, ?_⟩
  · refine recommend_one H neginf (s := mask neginf bad (fac.map (dot x))) ?_
      (userFactor_stored hu) hres hN' hfacne ?_ ?_
    · cases fl <;> rfl
    · rw [maskedRow_eq neginf rfl]
      constructor
      · intro rows hrows
        cases fl with
        | false => simp [likedPositions] at hrows
        | true =>
          simp [likedPositions] at hrows
          subst hrows
          refine ⟨(filterItemsRow its liked).map Prod.fst, by simp, ?_⟩
          intro i hi
          have : i ∈ bad := by rw [hbad]; simpa [badAt, likedPositions] using hi
          have := hbadlt i this
          simpa using (by omega : i < fac.length)
      · intro l hl; simp at hl
    · have h1 : (sel H (min N S.length) (mask neginf bad (fac.map (dot x)))).length =
          min N S.length := by
        have := congrArg List.length e
        rw [List.length_map, hlen, hflen] at this
        omega
      unfold padRow
      rw [e, h1]
      simp only [Nat.sub_self, List.replicate_zero, List.append_nil]
      rw [remapRow_some hltall, rename_append]
  · refine hr.renamed hitsnd ?_ ?_ ?_ ?_
    · intro j hj; omega
    · rintro i ⟨hi, hnl⟩
      obtain ⟨j, hj⟩ := hout i hi
      have := (List.getElem?_eq_some_iff.mp hj).1
      exact ⟨j, hj, by omega, (hbn j i hj).mpr hnl⟩
    · rintro j i hj ⟨_, hb⟩
      exact ⟨hin j i hj, (hbn j i hj).mp hb⟩
    · intro j i hj
      obtain ⟨y, h1, h2⟩ := hfac j i hj
      simp only [h1, h2]
  · intro q hq
    obtain ⟨p, hp, rfl⟩ := List.mem_map.mp hq
    obtain ⟨h1, _, h3⟩ := hrest p hp
    obtain ⟨hfl, e', he', h4⟩ := (hmem _).mp h1
    refine ⟨hin _ _ (hgetall p (by simp [hp])), hfl, ⟨e', he', ?_⟩, h3⟩
    simp [h4]
  · intro hrne i hi hnl
    obtain ⟨j, hj⟩ := hout i hi
    have hjl := (List.getElem?_eq_some_iff.mp hj).1
    have := hall (by intro h; rw [h] at hrne; exact hrne rfl) j (by omega) ((hbn j i hj).mpr hnl)
    obtain ⟨p, hp, rfl⟩ := List.mem_map.mp this
    refine List.mem_map.mpr ⟨_, List.mem_map_of_mem hp, ?_⟩
    simp [hj]
  · have : (good ++ rest).length = min N S.length := by rw [hlen, hflen]; omega
    simpa [rename] using this
  · rw [← rename_append]
    exact nodup_rename hitsnd hltall hndp

/-- **C05** when at least `N` members of `S` are eligible (distinct ids in `S`, no stored zeros in the
user's row): the answer is exactly the ranking of the `N` best eligible members of `S`. -/
theorem C05_items_partial (H : HeapImpl (R × Nat) pairLt) (neginf : R) (m : Factors f R)
    (recalc : SpRows R → Except Err (List (Vec f R)))
    (u : Nat) (x : Vec f R) (hu : m.user[u]? = some x)
    (S : List Int) (hnd : S.Nodup) (hS : ∀ i ∈ S, 0 ≤ i ∧ i < m.item.length)
    (liked : List (Nat × R)) (hnz : ∀ e ∈ liked, e.2 ≠ 0)
    (hlow : ∀ y ∈ m.item, neginf < dot x y) (N : Nat) (hN : 1 ≤ N)
    (hcard : N ≤ (S.filter (fun i => decide (i ∉ liked.map (fun e => (e.1 : Int))))).length) :
    ∃ out, recommend H neginf m recalc (.one u) (some [liked]) N true none false (some S) =
        .ok (.one out) ∧ out.length = N ∧
      Spec.IsRanking N (fun i => (i : Int) ∈ S ∧ i ∉ liked.map Prod.fst)
        (fun i => (m.item[i]?).map (dot x)) out := by
  have hle : N ≤ S.length := le_trans hcard (List.length_filter_le _ _)
  have hne : S ≠ [] := by intro h; subst h; simp at hle; omega
  obtain ⟨good, rest, e, hr, hrest, hall, hlen, hndp⟩ :=
    C05_items_answer H neginf m recalc u x hu S hne hnd hS true liked hnz hlow N hN
  rw [Nat.min_eq_left hle] at hr hlen
  have hel : ∀ i : Nat, notLiked true liked i ↔ i ∉ liked.map Prod.fst := by
    intro i; simp only [notLiked, List.mem_map, not_exists, not_and, forall_const]
  simp only [hel] at hr hall
  have hgl : good.length = N := by
    by_contra hne'
    have hlt : good.length < N := lt_of_le_of_ne hr.atMost hne'
    have hsub : (S.filter (fun i => decide (i ∉ liked.map (fun e => (e.1 : Int))))) ⊆
        good.map (fun p => (p.1 : Int)) := by
      intro i hi
      obtain ⟨hi1, hi2⟩ := List.mem_filter.mp hi
      have h0 := (hS i hi1).1
      have := hr.complete hlt i.toNat ⟨by rwa [Int.toNat_of_nonneg h0], by
        intro hm
        obtain ⟨p, hp, hpe⟩ := List.mem_map.mp hm
        have : i ∈ liked.map (fun e => (e.1 : Int)) :=
          List.mem_map.mpr ⟨p, hp, by rw [hpe]; exact Int.toNat_of_nonneg h0⟩
        simp [this] at hi2⟩
      obtain ⟨p, hp, hpe⟩ := List.mem_map.mp this
      exact List.mem_map.mpr ⟨p, hp, by rw [hpe]; exact Int.toNat_of_nonneg h0⟩
    have := (List.subperm_of_subset (hnd.filter _) hsub).length_le
    rw [List.length_map] at this
    omega
  have hrestnil : rest = [] := by
    rw [List.length_append] at hlen
    apply List.length_eq_zero_iff.mp; omega
  subst hrestnil
  exact ⟨good, by simpa using e, hgl, hr⟩

/-- **C05 is violated** by the code:
1. a liked id given twice in `items` is filtered only once and comes back (item 1 is liked, item 2
   is eligible and `N = 2`, yet 1 is returned and best);
2. an unliked id given twice is returned twice;
3. a liked item whose stored value is 0 is filtered without `items` but not with `items`. -/
theorem C05_items_violated (H : HeapImpl (Rat × Nat) pairLt) :
    recommend H (-1000) c04Model noRecalc (.one 0) (some [[(2, 1)]]) 2 true none false
      (some [0, 2, 2]) = .ok (.one [(2, 3), (0, 1)]) ∧
    recommend H (-1000) c04Model noRecalc (.one 0) (some [[]]) 2 true none false
      (some [0, 2, 2]) = .ok (.one [(2, 3), (2, 3)]) ∧
    recommend H (-1000) c04Model noRecalc (.one 0) (some [[(2, 0)]]) 1 true none false none =
      .ok (.one [(1, 2)]) ∧
    recommend H (-1000) c04Model noRecalc (.one 0) (some [[(2, 0)]]) 1 true none false
      (some [0, 1, 2]) = .ok (.one [(2, 3)]) := by
  have hsel : ∀ k s, sel H k s = sel (insertionHeap (R := Rat)) k s := by
    intro k s; unfold sel; rw [C01_select_heap_independent H insertionHeap]
  refine ⟨?_, ?_, ?_, ?_⟩
  · refine recommend_one H _ (s := [1, -1000, 3]) (x := ![1]) (N' := 2)
      (fac := [![1], ![3], ![3]]) (its := some [0, 2, 2]) rfl (userFactor_stored rfl)
      (by decide +kernel) (by omega) (by simp) (by decide +kernel) ?_
    rw [hsel]; decide +kernel
  · refine recommend_one H _ (s := [1, 3, 3]) (x := ![1]) (N' := 2)
      (fac := [![1], ![3], ![3]]) (its := some [0, 2, 2]) rfl (userFactor_stored rfl)
      (by decide +kernel) (by omega) (by simp) (by decide +kernel) ?_
    rw [hsel]; decide +kernel
  · refine recommend_one H _ (s := [1, 2, -1000]) (x := ![1]) (N' := 1)
      (fac := [![1], ![2], ![3]]) (its := none) rfl (userFactor_stored rfl)
      rfl (by omega) (by simp) (by decide +kernel) ?_
    rw [hsel]; decide +kernel
  · refine recommend_one H _ (s := [1, 2, 3]) (x := ![1]) (N' := 1)
      (fac := [![1], ![2], ![3]]) (its := some [0, 1, 2]) rfl (userFactor_stored rfl)
      (by decide +kernel) (by omega) (by simp) (by decide +kernel) ?_
    rw [hsel]; decide +kernel

/-- The hypotheses of `C05_items_partial` are met by a concrete case: `S = {2, 0}`, item 0 liked,
`N = 1`. -/
example : c04Model.user[0]? = some ![1] ∧ [(2 : Int), 0].Nodup ∧
    (∀ i ∈ [(2 : Int), 0], 0 ≤ i ∧ i < c04Model.item.length) ∧
    (∀ e ∈ [((0 : Nat), (1 : Rat))], e.2 ≠ 0) ∧
    1 ≤ ([(2 : Int), 0].filter
      (fun i => decide (i ∉ [((0 : Nat), (1 : Rat))].map (fun e => (e.1 : Int))))).length := by
  refine ⟨rfl, by decide, ?_, by simp, by decide⟩
  intro i hi; simp at hi; rcases hi with rfl | rfl <;> simp [c04Model]

end Implicit
