import Verif.Lemmas.Recommend

set_option linter.unusedSectionVars false

namespace Implicit

variable {R : Type} [LinearOrder R]

/-! ### `searchsorted` on strictly sorted ids -/

theorem searchsorted_of_getElem? : ∀ {its : List Nat}, its.Pairwise (· < ·) → ∀ {j c : Nat},
    its[j]? = some c → searchsorted its c = j
  | [], _, j, c, h => by simp at h
  | a :: its, hp, j, c, h => by
    obtain ⟨h1, h2⟩ := List.pairwise_cons.mp hp
    unfold searchsorted
    cases j with
    | zero =>
      simp at h; subst h
      rw [List.countP_eq_zero]
      intro b hb
      rcases List.mem_cons.mp hb with rfl | hb
      · simp
      · have := h1 b hb; simp; omega
    | succ j =>
      have h' : its[j]? = some c := by simpa using h
      have hc : a < c := h1 c (List.mem_of_getElem? h')
      have := searchsorted_of_getElem? h2 h'
      unfold searchsorted at this
      rw [List.countP_cons_of_pos (by simpa using hc), this]

/-- The positions kept by `_filter_items_from_sparse_matrix` are those of the stored non-zero
columns that occur in `items`. -/
theorem mem_filterItemsRow [Field R] {its : List Nat} (hs : its.Pairwise (· < ·))
    (row : List (Nat × R)) (j : Nat) :
    j ∈ (filterItemsRow its row).map Prod.fst ↔ ∃ e ∈ row, e.2 ≠ 0 ∧ its[j]? = some e.1 := by
  unfold filterItemsRow
  constructor
  · intro h
    obtain ⟨q, hq, rfl⟩ := List.mem_map.mp h
    obtain ⟨hq1, hq2⟩ := List.mem_filter.mp hq
    obtain ⟨e, he, rfl⟩ := List.mem_map.mp hq1
    refine ⟨e, he, ?_⟩
    simp only at hq2 ⊢
    split_ifs at hq2 ⊢ with hc
    · exact ⟨by simpa using hq2, hc⟩
    · simp at hq2
  · rintro ⟨e, he, h0, hj⟩
    have h1 := searchsorted_of_getElem? hs hj
    have hlt := (List.getElem?_eq_some_iff.mp hj).1
    have h2 : min (searchsorted its e.1) (its.length - 1) = j := by rw [h1]; omega
    refine List.mem_map.mpr ⟨(j, e.2), ?_, rfl⟩
    refine List.mem_filter.mpr ⟨List.mem_map.mpr ⟨e, he, ?_⟩, by simpa using h0⟩
    simp only [h2, hj, if_true]

/-! ### `factors[items]` -/

theorem pyIndex_ok {α : Type} {l : List α} {i : Int} (h0 : 0 ≤ i) (h1 : i < l.length) :
    ∃ x, l[i.toNat]? = some x ∧ pyIndex l i = .ok x := by
  have hlt : i.toNat < l.length := by omega
  refine ⟨l[i.toNat], List.getElem?_eq_getElem hlt, ?_⟩
  unfold pyIndex
  simp only [if_neg (not_lt.mpr h0)]
  rw [List.getElem?_eq_getElem hlt]

theorem gatherInt_ok {α : Type} (l : List α) : ∀ (is : List Int),
    (∀ i ∈ is, 0 ≤ i ∧ i < l.length) →
    gatherInt l is = gather l (is.map Int.toNat) ∧
      ∃ xs, gather l (is.map Int.toNat) = .ok xs
  | [], _ => ⟨rfl, _, rfl⟩
  | i :: is, h => by
    obtain ⟨h0, h1⟩ := h i (by simp)
    obtain ⟨x, hx, hp⟩ := pyIndex_ok h0 h1
    obtain ⟨e, xs, he⟩ := gatherInt_ok l is (fun j hj => h j (by simp [hj]))
    refine ⟨?_, x :: xs, ?_⟩
    · unfold gatherInt
      rw [hp, e]
      simp only [List.map_cons, gather, hx]
      rfl
    · simp only [List.map_cons, gather, hx, he]
      rfl

theorem checkItems_ok {n : Nat} {its : List Int} (hne : its ≠ []) (h : ∀ i ∈ its, 0 ≤ i ∧ i < n) :
    checkItems n its = .ok () := by
  unfold checkItems
  rw [if_neg (by simpa using hne), if_neg]
  simp only [Bool.or_eq_true, List.any_eq_true, decide_eq_true_eq, not_or, not_exists, not_and]
  exact ⟨fun i hi => by have := h i hi; omega, fun i hi => by have := h i hi; omega⟩

/-- The sorted ids, as natural numbers. -/
def sortedIds (S : List Int) : List Nat :=
  (S.insertionSort (· ≤ ·)).map Int.toNat

theorem mem_sortedIds {S : List Int} {i : Nat} (h : ∀ i ∈ S, 0 ≤ i) :
    i ∈ sortedIds S ↔ (i : Int) ∈ S := by
  unfold sortedIds
  rw [List.mem_map]
  constructor
  · rintro ⟨a, ha, rfl⟩
    have ha' : a ∈ S := by simpa using ha
    rwa [Int.toNat_of_nonneg (h a ha')]
  · intro hi
    exact ⟨i, by simpa using hi, by simp⟩

theorem length_sortedIds (S : List Int) : (sortedIds S).length = S.length := by
  simp [sortedIds]

theorem sortedIds_strict {S : List Int} (hnd : S.Nodup) (h : ∀ i ∈ S, 0 ≤ i) :
    (sortedIds S).Pairwise (· < ·) := by
  unfold sortedIds
  have hp : (S.insertionSort (· ≤ ·)).Pairwise (· ≤ ·) := List.pairwise_insertionSort _ S
  have hnd' : (S.insertionSort (· ≤ ·)).Nodup :=
    ((List.perm_insertionSort _ S).nodup_iff).mpr hnd
  rw [List.pairwise_map]
  refine List.Pairwise.imp_of_mem ?_ (hp.and hnd')
  rintro a b ha hb ⟨h1, h2⟩
  have ha' := h a (by simpa using ha)
  have hb' := h b (by simpa using hb)
  omega

section
variable [Field R] {f : Nat}

theorem restrictItems_ok {m : Factors f R} {N : Nat} {fi : Option PyFilter} {S : List Int}
    (hfi : truthyOpt fi = .ok false) (hne : S ≠ []) (hS : ∀ i ∈ S, 0 ≤ i ∧ i < m.item.length) :
    ∃ fac, restrictItems m N fi (some S) = .ok (min N S.length, fac, some (sortedIds S)) ∧
      fac.length = S.length ∧
      ∀ (j i : Nat), (sortedIds S)[j]? = some i → ∃ y, m.item[i]? = some y ∧ fac[j]? = some y := by
  set T := S.insertionSort (· ≤ ·) with hT
  have hTS : ∀ i ∈ T, 0 ≤ i ∧ i < m.item.length := by
    intro i hi; exact hS i (by simpa [hT] using hi)
  obtain ⟨e1, fac, e2⟩ := gatherInt_ok m.item T hTS
  have hTne : T ≠ [] := by
    intro h
    have : T.length = S.length := by simp [hT]
    rw [h] at this; exact hne (by simpa using this.symm)
  refine ⟨fac, ?_, ?_, ?_⟩
  · unfold restrictItems
    simp only [hfi, bind, Except.bind]
    rw [← hT, e1, e2]
    simp only
    rw [checkItems_ok hTne hTS]
    rfl
  · rw [gather_length e2]; simp [hT]
  · exact ((gather_ok _ _ _).mp e2).2

theorem restrictSimilar_ok {factors : List (Vec f R)} {norms : List R} {fi : Option PyFilter}
    {S : List Int} (hfi : truthyOpt fi = .ok false) (hne : S ≠ [])
    (hlen : norms.length = factors.length) (hS : ∀ i ∈ S, 0 ≤ i ∧ i < factors.length) :
    ∃ fac ns, restrictSimilar factors norms fi (some S) = .ok (fac, ns, some (S.map Int.toNat)) ∧
      fac.length = S.length ∧ ns.length = S.length ∧
      ∀ (j i : Nat), (S.map Int.toNat)[j]? = some i →
        ∃ y n, factors[i]? = some y ∧ fac[j]? = some y ∧ norms[i]? = some n ∧ ns[j]? = some n := by
  obtain ⟨e1, fac, e2⟩ := gatherInt_ok factors S hS
  obtain ⟨e3, ns, e4⟩ := gatherInt_ok norms S (by rw [hlen]; exact hS)
  refine ⟨fac, ns, ?_, ?_, ?_, ?_⟩
  · unfold restrictSimilar
    simp only [hfi, bind, Except.bind]
    rw [e1, e2, e3, e4]
    simp only
    rw [checkItems_ok hne hS]
    rfl
  · rw [gather_length e2]; simp
  · rw [gather_length e4]; simp
  · intro j i h
    obtain ⟨y, h1, h2⟩ := ((gather_ok _ _ _).mp e2).2 j i h
    obtain ⟨n, h3, h4⟩ := ((gather_ok _ _ _).mp e4).2 j i h
    exact ⟨y, n, h1, h2, h3, h4⟩

/-- Renaming of positions to ids. -/
def rename (its : List Nat) (row : List (Nat × R)) : List (Nat × R) :=
  row.map fun p => (its[p.1]?.getD 0, p.2)

theorem remapRow_some {its : List Nat} {row : List (Nat × R)} (h : ∀ p ∈ row, p.1 < its.length) :
    remapRow (some its) row = .ok (rename its row) := by
  unfold remapRow rename
  refine mapM_ok_of ?_
  intro p hp
  rw [List.getElem?_eq_getElem (h p hp)]
  rfl

theorem remapRow_none (row : List (Nat × R)) : remapRow none row = .ok row := rfl

theorem rename_append (its : List Nat) (a b : List (Nat × R)) :
    rename its (a ++ b) = rename its a ++ rename its b := by simp [rename]

theorem nodup_rename {its : List Nat} (hits : its.Nodup) {row : List (Nat × R)}
    (h : ∀ p ∈ row, p.1 < its.length) (hnd : (row.map Prod.fst).Nodup) :
    ((rename its row).map Prod.fst).Nodup := by
  have e : (rename its row).map Prod.fst = (row.map Prod.fst).map (fun j => its[j]?.getD 0) := by
    simp [rename, List.map_map, Function.comp_def]
  rw [e]
  refine List.Nodup.map_on ?_ hnd
  intro a ha b hb hab
  obtain ⟨p, hp, rfl⟩ := List.mem_map.mp ha
  obtain ⟨q, hq, rfl⟩ := List.mem_map.mp hb
  have h1 := h p hp
  have h2 := h q hq
  rw [List.getElem?_eq_getElem h1, List.getElem?_eq_getElem h2] at hab
  exact (List.Nodup.getElem_inj_iff hits).mp hab

end

/-- A ranking of positions becomes a ranking of ids. -/
theorem _root_.Implicit.Spec.IsRanking.renamed [Field R] {its : List Nat} (hits : its.Nodup) {k : Nat}
    {P E : Nat → Prop} {sc score : Nat → Option R} {good : List (Nat × R)}
    (h : Spec.IsRanking k P sc good) (hP : ∀ j, P j → j < its.length)
    (hE : ∀ i, E i → ∃ j, its[j]? = some i ∧ P j)
    (hPE : ∀ j i : Nat, its[j]? = some i → P j → E i)
    (hsc : ∀ j i : Nat, its[j]? = some i → score i = sc j) :
    Spec.IsRanking k E score (rename its good) := by
  have hlt : ∀ p ∈ good, p.1 < its.length := fun p hp => hP _ (h.mem p hp).1
  have hget : ∀ p ∈ good, its[p.1]? = some (its[p.1]?.getD 0) := by
    intro p hp
    rw [List.getElem?_eq_getElem (hlt p hp)]; rfl
  refine ⟨?_, nodup_rename hits hlt h.distinct, ?_, ?_, ?_, ?_⟩
  · intro q hq
    obtain ⟨p, hp, rfl⟩ := List.mem_map.mp hq
    obtain ⟨h1, h2⟩ := h.mem p hp
    exact ⟨hPE _ _ (hget p hp) h1, by rw [hsc _ _ (hget p hp)]; exact h2⟩
  · unfold rename; rw [List.pairwise_map]; exact h.sorted
  · simpa [rename] using h.atMost
  · intro hl i hi
    obtain ⟨j, hj, hpj⟩ := hE i hi
    have := h.complete (by simpa [rename] using hl) j hpj
    obtain ⟨p, hp, rfl⟩ := List.mem_map.mp this
    refine List.mem_map.mpr ⟨_, List.mem_map_of_mem hp, ?_⟩
    simp [hj]
  · intro i s hi hs hnot q hq
    obtain ⟨p, hp, rfl⟩ := List.mem_map.mp hq
    obtain ⟨j, hj, hpj⟩ := hE i hi
    refine h.best j s hpj (by rw [← hsc j i hj]; exact hs) ?_ p hp
    intro hmem
    apply hnot
    obtain ⟨p', hp', rfl⟩ := List.mem_map.mp hmem
    refine List.mem_map.mpr ⟨_, List.mem_map_of_mem hp', ?_⟩
    simp [hj]

end Implicit
