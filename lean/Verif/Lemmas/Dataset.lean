import Mathlib.Tactic.Linarith
import Mathlib.Data.List.Sort
import Mathlib.Algebra.BigOperators.Group.List.Basic
import Mathlib.Algebra.BigOperators.Group.List.Lemmas
import Verif.Model.Dataset
import Verif.Spec.Dataset

namespace Implicit

open Spec (recordSum MatrixOf NamesOf Describes)

/-! ## Categories -/

section Categories

variable {K : Type} [LinearOrder K]

theorem mem_categoriesOf (column : List (Option K)) (k : K) : k ∈ categoriesOf column ↔ some k ∈ column := by
  unfold categoriesOf
  rw [List.mem_insertionSort, List.mem_dedup, List.mem_filterMap]
  simp

theorem nodup_categoriesOf (column : List (Option K)) : (categoriesOf column).Nodup :=
  (List.perm_insertionSort (· ≤ ·) _).nodup_iff.mpr (List.nodup_dedup _)

theorem sorted_categoriesOf (column : List (Option K)) : (categoriesOf column).Pairwise (· < ·) := by
  have h1 : (categoriesOf column).Pairwise (· ≤ ·) := List.pairwise_insertionSort (· ≤ ·) _
  have h2 := nodup_categoriesOf column
  exact (h1.and h2).imp fun ⟨a, b⟩ => lt_of_le_of_ne a b

theorem categoryCode_some {cats : List K} (hnd : cats.Nodup) {k : K} (hk : k ∈ cats) (a : Nat) :
    categoryCode cats (some k) = (a : Int) ↔ cats[a]? = some k := by
  show ((cats.idxOf k : Nat) : Int) = a ↔ _
  have hl := List.idxOf_lt_length_of_mem hk
  have hget : cats[cats.idxOf k]? = some k := by
    rw [List.getElem?_eq_getElem hl, List.getElem_idxOf hl]
  constructor
  · intro h
    have : cats.idxOf k = a := by exact_mod_cast h
    rw [← this]; exact hget
  · intro h
    have := (List.getElem?_inj hl hnd).mp (hget.trans h.symm)
    exact_mod_cast this

end Categories

/-! ## Rows -/

section Rows

variable {R : Type} [AddCommMonoid R]

/-- Sum of the values at a column. -/
def sumAt (l : List (Nat × R)) (b : Nat) : R := ((l.filter fun e => e.1 = b).map fun e => e.2).sum

theorem sumAt_cons (e : Nat × R) (l : List (Nat × R)) (b : Nat) :
    sumAt (e :: l) b = if e.1 = b then e.2 + sumAt l b else sumAt l b := by
  unfold sumAt
  by_cases h : e.1 = b <;> simp [h]

theorem sumAt_of_not_mem {l : List (Nat × R)} {b : Nat} (h : ∀ w, (b, w) ∉ l) : sumAt l b = 0 := by
  unfold sumAt
  rw [List.filter_eq_nil_iff.mpr]
  · rfl
  · rintro ⟨x, w⟩ hx hb
    have : x = b := by simpa using hb
    exact h w (this ▸ hx)

theorem sumAdjacent_spec : ∀ (l : List (Nat × R)), (l.map Prod.fst).Pairwise (· ≤ ·) →
    ((sumAdjacent l).map Prod.fst).Pairwise (· < ·) ∧
    ((sumAdjacent l).head?.map Prod.fst = l.head?.map Prod.fst) ∧
    ∀ b v, (b, v) ∈ sumAdjacent l ↔ (∃ w, (b, w) ∈ l) ∧ v = sumAt l b
  | [], _ => by simp [sumAdjacent]
  | e :: l, hs => by
    rw [List.map_cons, List.pairwise_cons] at hs
    obtain ⟨ih1, ih2, ih3⟩ := sumAdjacent_spec l hs.2
    unfold sumAdjacent
    rcases hr : sumAdjacent l with _ | ⟨e', r⟩
    · have hl : l = [] := by
        rw [hr] at ih2
        cases l with
        | nil => rfl
        | cons a l => simp at ih2
      subst hl
      refine ⟨by simp, by simp, ?_⟩
      intro b v
      rw [sumAt_cons]
      obtain ⟨x, y⟩ := e
      simp only [List.mem_singleton, Prod.mk.injEq]
      constructor
      · rintro ⟨rfl, rfl⟩; exact ⟨⟨v, rfl, rfl⟩, by simp [sumAt]⟩
      · rintro ⟨⟨w, rfl, rfl⟩, h⟩
        refine ⟨rfl, ?_⟩
        simpa [sumAt] using h
    · rw [hr] at ih1 ih2 ih3
      have hmem' : ∃ w, (e'.1, w) ∈ l := ((ih3 e'.1 e'.2).mp (by simp)).1
      have hval' : e'.2 = sumAt l e'.1 := ((ih3 e'.1 e'.2).mp (by simp)).2
      have hle : e.1 ≤ e'.1 := by
        obtain ⟨w, hw⟩ := hmem'
        exact hs.1 _ (List.mem_map.mpr ⟨_, hw, rfl⟩)
      rw [List.map_cons, List.pairwise_cons] at ih1
      by_cases heq : e.1 = e'.1
      · simp only [if_pos heq]
        refine ⟨?_, by simp, ?_⟩
        · rw [List.map_cons, List.pairwise_cons, heq]
          exact ih1
        · intro b v
          rw [sumAt_cons]
          by_cases hb : e.1 = b
          · subst hb
            simp only [if_true]
            constructor
            · intro h
              rcases List.mem_cons.mp h with h | h
              · cases h
                refine ⟨⟨e.2, List.mem_cons_self ..⟩, ?_⟩
                rw [hval', heq]
              · have := ih1.1 e.1 (List.mem_map.mpr ⟨_, h, rfl⟩)
                omega
            · rintro ⟨_, rfl⟩
              rw [heq, ← hval']
              exact List.mem_cons_self ..
          · simp only [if_neg hb]
            have h1 : (b, v) ∈ (e.1, e.2 + e'.2) :: r ↔ (b, v) ∈ e' :: r := by
              simp only [List.mem_cons]
              constructor
              · rintro (h | h)
                · cases h; exact absurd rfl hb
                · exact Or.inr h
              · rintro (h | h)
                · rw [← h] at heq; exact absurd heq hb
                · exact Or.inr h
            rw [h1, ih3 b v]
            constructor
            · rintro ⟨⟨w, hw⟩, h⟩; exact ⟨⟨w, List.mem_cons_of_mem _ hw⟩, h⟩
            · rintro ⟨⟨w, hw⟩, h⟩
              refine ⟨⟨w, ?_⟩, h⟩
              rcases List.mem_cons.mp hw with hw | hw
              · rw [← hw] at hb; exact absurd rfl hb
              · exact hw
      · simp only [if_neg heq]
        have hlt : e.1 < e'.1 := lt_of_le_of_ne hle heq
        have hall : ∀ w, (e.1, w) ∉ l := by
          intro w hw
          have := (ih3 e.1 (sumAt l e.1)).mpr ⟨⟨w, hw⟩, rfl⟩
          rcases List.mem_cons.mp this with h | h
          · rw [← h] at hlt; exact lt_irrefl _ hlt
          · have := ih1.1 e.1 (List.mem_map.mpr ⟨_, h, rfl⟩)
            omega
        refine ⟨?_, by simp, ?_⟩
        · rw [List.map_cons, List.pairwise_cons]
          refine ⟨?_, ?_⟩
          · intro k hk
            rcases List.mem_cons.mp (by simpa using hk : k ∈ e'.1 :: r.map Prod.fst) with rfl | hk
            · exact hlt
            · exact hlt.trans (ih1.1 k hk)
          · rw [List.map_cons, List.pairwise_cons]; exact ih1
        · intro b v
          rw [sumAt_cons, List.mem_cons, ih3 b v]
          by_cases hb : e.1 = b
          · subst hb
            rw [if_pos rfl, sumAt_of_not_mem hall, add_zero]
            constructor
            · rintro (h | ⟨⟨w, hw⟩, _⟩)
              · rw [← h]; exact ⟨⟨v, List.mem_cons_self ..⟩, rfl⟩
              · exact absurd hw (hall w)
            · rintro ⟨_, rfl⟩; exact Or.inl rfl
          · rw [if_neg hb]
            constructor
            · rintro (h | ⟨⟨w, hw⟩, h⟩)
              · rw [← h] at hb; exact absurd rfl hb
              · exact ⟨⟨w, List.mem_cons_of_mem _ hw⟩, h⟩
            · rintro ⟨⟨w, hw⟩, h⟩
              refine Or.inr ⟨⟨w, ?_⟩, h⟩
              rcases List.mem_cons.mp hw with hw | hw
              · rw [← hw] at hb; exact absurd rfl hb
              · exact hw

theorem dsRow_spec (entries : List (Nat × Nat × R)) (a : Nat) :
    ((dsRow entries a).map Prod.fst).Pairwise (· < ·) ∧
    ∀ b v, (b, v) ∈ dsRow entries a ↔ (∃ w, (a, b, w) ∈ entries) ∧ v = recordSum entries a b := by
  have hperm := List.perm_insertionSort (fun x y : Nat × R => x.1 ≤ y.1)
    ((entries.filter fun e => e.1 = a).map fun e => e.2)
  have htot : Std.Total (fun x y : Nat × R => x.1 ≤ y.1) := ⟨fun x y => le_total _ _⟩
  have htr : IsTrans (Nat × R) (fun x y : Nat × R => x.1 ≤ y.1) := ⟨fun x y z h1 h2 => le_trans h1 h2⟩
  have hsort : ((((entries.filter fun e => e.1 = a).map fun e => e.2).insertionSort
      fun x y => x.1 ≤ y.1).map Prod.fst).Pairwise (· ≤ ·) :=
    List.pairwise_map.mpr (List.pairwise_insertionSort (fun x y : Nat × R => x.1 ≤ y.1) _)
  obtain ⟨h1, _, h3⟩ := sumAdjacent_spec _ hsort
  refine ⟨h1, fun b v => ?_⟩
  have hsum : sumAt (((entries.filter fun e => e.1 = a).map fun e => e.2).insertionSort
      fun x y => x.1 ≤ y.1) b = recordSum entries a b := by
    unfold sumAt recordSum
    rw [((hperm.filter _).map _).sum_eq, List.filter_map, List.map_map, List.filter_filter]
    congr 2
    refine List.filter_congr fun e _ => ?_
    simp [Bool.and_comm]
  unfold dsRow
  rw [h3 b v, hsum]
  have : (∃ w, (b, w) ∈ ((entries.filter fun e => e.1 = a).map fun e => e.2).insertionSort
      fun x y => x.1 ≤ y.1) ↔ ∃ w, (a, b, w) ∈ entries := by
    constructor
    · rintro ⟨w, hw⟩
      rw [List.mem_insertionSort] at hw
      obtain ⟨⟨x, y⟩, he, rfl⟩ := List.mem_map.mp hw
      obtain ⟨he1, he2⟩ := List.mem_filter.mp he
      have : x = a := by simpa using he2
      exact ⟨w, this ▸ he1⟩
    · rintro ⟨w, hw⟩
      exact ⟨w, by rw [List.mem_insertionSort]; exact List.mem_map.mpr ⟨_, List.mem_filter.mpr ⟨hw, by simp⟩, rfl⟩⟩
  rw [this]

end Rows

/-! ## Arrays -/

section Arrays

variable {R : Type}

theorem slicesAt_scanl {A : Type} : ∀ (rows : List (List A)) (pre : List A),
    slicesAt (pre ++ rows.flatten) ((rows.map List.length).scanl (· + ·) pre.length) = rows
  | [], pre => by simp [slicesAt]
  | row :: rows, pre => by
    have ih := slicesAt_scanl rows (pre ++ row)
    rw [List.map_cons, List.scanl_cons, List.flatten_cons]
    rw [List.append_assoc, List.length_append] at ih
    have hne : ∃ t, (rows.map List.length).scanl (· + ·) (pre.length + row.length) = (pre.length + row.length) :: t := by
      cases rows <;> simp [List.scanl_cons]
    obtain ⟨t, ht⟩ := hne
    rw [ht] at ih ⊢
    unfold slicesAt
    rw [ih]
    congr 1
    simp

theorem getLastD_scanl (ns : List Nat) (a d : Nat) : (ns.scanl (· + ·) a).getLastD d = a + ns.sum := by
  induction ns generalizing a d with
  | nil => simp
  | cons n ns ih =>
    rw [List.scanl_cons]
    have hne : ∃ x t, ns.scanl (· + ·) (a + n) = x :: t := by cases ns <;> simp [List.scanl_cons]
    obtain ⟨x, t, ht⟩ := hne
    have := ih (a + n) 0
    rw [ht] at this ⊢
    simp only [List.getLastD_cons] at this ⊢
    rw [this, List.sum_cons]
    omega

/-- Writing the arrays of a matrix and reading them back gives the rows. -/
theorem csrMatrix_csrArrays (rows : List (List (Nat × R))) (h : rows.flatten ≠ []) :
    csrMatrix (csrArrays rows) = .ok (rows, (rows.flatten.map Prod.fst).foldl max 0 + 1) := by
  unfold csrMatrix csrArrays
  simp only
  rw [if_neg]
  · have hzip : (rows.flatten.map Prod.fst).zip (rows.flatten.map Prod.snd) = rows.flatten := by
      rw [List.zip_map']
      exact List.map_id _
    rw [hzip]
    have := slicesAt_scanl rows []
    simp only [List.nil_append, List.length_nil] at this
    rw [this]
  · rintro (h1 | h1 | h1 | h1)
    · exact h (by simpa using h1)
    · apply h1
      cases rows <;> simp [List.scanl_cons]
    · exact h1 (by rw [List.length_map, List.length_map])
    · rw [getLastD_scanl, List.length_map, List.length_flatten] at h1
      omega

theorem foldl_max_spec (l : List Nat) (a : Nat) :
    (∀ x ∈ l, x ≤ l.foldl max a) ∧ a ≤ l.foldl max a ∧ (l.foldl max a = a ∨ l.foldl max a ∈ l) := by
  induction l generalizing a with
  | nil => simp
  | cons b l ih =>
    obtain ⟨h1, h2, h3⟩ := ih (max a b)
    rw [List.foldl_cons]
    refine ⟨?_, by omega, ?_⟩
    · intro x hx
      rcases List.mem_cons.mp hx with rfl | hx
      · omega
      · exact h1 x hx
    · rcases h3 with h | h
      · rw [h]
        rcases le_total a b with hab | hab
        · right; rw [max_eq_right hab]; simp
        · left; exact max_eq_left hab
      · right; exact List.mem_cons_of_mem _ h

theorem maxSucc_spec (l : List Int) (hl : l ≠ []) (hpos : ∀ x ∈ l, 0 ≤ x) :
    (∀ x ∈ l, x.toNat < (maxSucc l).toNat) ∧ ∃ x ∈ l, x.toNat + 1 = (maxSucc l).toNat := by
  have key : ∀ (l : List Int) (a : Int), (∀ x ∈ l, x ≤ l.foldl max a) ∧ a ≤ l.foldl max a ∧
      (l.foldl max a = a ∨ l.foldl max a ∈ l) := by
    intro l
    induction l with
    | nil => simp
    | cons b l ih =>
      intro a
      obtain ⟨h1, h2, h3⟩ := ih (max a b)
      rw [List.foldl_cons]
      refine ⟨?_, by omega, ?_⟩
      · intro x hx
        rcases List.mem_cons.mp hx with rfl | hx
        · omega
        · exact h1 x hx
      · rcases h3 with h | h
        · rw [h]
          rcases le_total a b with hab | hab
          · right; rw [max_eq_right hab]; simp
          · left; exact max_eq_left hab
        · right; exact List.mem_cons_of_mem _ h
  obtain ⟨h1, h2, h3⟩ := key l (-1)
  unfold maxSucc
  refine ⟨?_, ?_⟩
  · intro x hx
    have := h1 x hx
    have := hpos x hx
    omega
  · rcases h3 with h | h
    · obtain ⟨y, hy⟩ := List.exists_mem_of_ne_nil l hl
      have := h1 y hy
      have := hpos y hy
      omega
    · refine ⟨_, h, ?_⟩
      have := hpos _ h
      omega

end Arrays

/-! ## The matrix of records -/

section Matrix

variable {R : Type} [AddCommMonoid R]

/-- Building a matrix, storing its arrays and reading them back. -/
theorem dsToCsr_ok (entries : List (Int × Int × R)) (hne : entries ≠ []) (hpos : ∀ e ∈ entries, 0 ≤ e.1 ∧ 0 ≤ e.2.1) :
    ∃ t rows cols, dsToCsr entries = .ok t ∧ csrMatrix t = .ok (rows, cols) ∧
      MatrixOf (entries.map fun e => (e.1.toNat, e.2.1.toNat, e.2.2)) rows cols := by
  set recs : List (Nat × Nat × R) := entries.map fun e => (e.1.toNat, e.2.1.toNat, e.2.2) with hrecs
  set M := (maxSucc (entries.map fun e => e.1)).toNat with hM
  set rows := (List.range M).map (dsRow recs) with hrows
  obtain ⟨hM1, hM2⟩ := maxSucc_spec (entries.map fun e => e.1) (by simpa using hne) (by
    intro x hx; obtain ⟨e, he, rfl⟩ := List.mem_map.mp hx; exact (hpos e he).1)
  rw [← hM] at hM1 hM2
  have hbound : ∀ r ∈ recs, r.1 < M := by
    intro r hr
    obtain ⟨e, he, rfl⟩ := List.mem_map.mp hr
    exact hM1 e.1 (List.mem_map.mpr ⟨e, he, rfl⟩)
  have hlen : rows.length = M := by simp [hrows]
  have hget : ∀ a : Nat, ∀ row, rows[a]? = some row → a < M ∧ row = dsRow recs a := by
    intro a row h
    rw [hrows, List.getElem?_map] at h
    obtain ⟨x, hx, rfl⟩ := Option.map_eq_some_iff.mp h
    obtain ⟨hx1, hx2⟩ := List.getElem?_eq_some_iff.mp hx
    rw [List.getElem_range] at hx2
    subst hx2
    exact ⟨by simpa using hx1, rfl⟩
  have hget' : ∀ a : Nat, a < M → rows[a]? = some (dsRow recs a) := by
    intro a ha
    rw [hrows, List.getElem?_map, List.getElem?_eq_getElem (by simpa using ha), List.getElem_range]
    rfl
  have hcell : ∀ (a b : Nat) (v : R), (∃ row, rows[a]? = some row ∧ (b, v) ∈ row) ↔
      (∃ w, (a, b, w) ∈ recs) ∧ v = recordSum recs a b := by
    intro a b v
    constructor
    · rintro ⟨row, hr, hm⟩
      obtain ⟨_, rfl⟩ := hget a row hr
      exact ((dsRow_spec recs a).2 b v).mp hm
    · rintro ⟨⟨w, hw⟩, hv⟩
      exact ⟨_, hget' a (hbound _ hw), ((dsRow_spec recs a).2 b v).mpr ⟨⟨w, hw⟩, hv⟩⟩
  have hcols : ∀ b : Nat, b ∈ rows.flatten.map Prod.fst ↔ ∃ a w, (a, b, w) ∈ recs := by
    intro b
    constructor
    · intro h
      obtain ⟨⟨x, v⟩, hx, rfl⟩ := List.mem_map.mp h
      obtain ⟨row, hrow, hx⟩ := List.mem_flatten.mp hx
      obtain ⟨a, ha⟩ := List.mem_iff_getElem?.mp hrow
      obtain ⟨⟨w, hw⟩, _⟩ := (hcell a x v).mp ⟨row, ha, hx⟩
      exact ⟨a, w, hw⟩
    · rintro ⟨a, w, hw⟩
      obtain ⟨row, hr, hm⟩ := (hcell a b _).mpr ⟨⟨w, hw⟩, rfl⟩
      exact List.mem_map.mpr ⟨_, List.mem_flatten.mpr ⟨row, List.mem_of_getElem? hr, hm⟩, rfl⟩
  have hflat : rows.flatten ≠ [] := by
    obtain ⟨e, he⟩ := List.exists_mem_of_ne_nil entries hne
    intro h
    have := (hcols e.2.1.toNat).mpr ⟨e.1.toNat, e.2.2, List.mem_map.mpr ⟨e, he, rfl⟩⟩
    rw [h] at this
    cases this
  refine ⟨csrArrays rows, rows, _, ?_, csrMatrix_csrArrays rows hflat, ?_⟩
  · unfold dsToCsr cooMatrix
    rw [if_neg (by simpa using hne), if_neg]
    · rfl
    · intro h
      obtain ⟨e, he, hc⟩ := List.any_eq_true.mp h
      have := hpos e he
      have hc' := of_decide_eq_true hc
      omega
  · obtain ⟨hx1, _, hx3⟩ := foldl_max_spec (rows.flatten.map Prod.fst) 0
    refine ⟨fun r hr => by rw [hlen]; exact hbound r hr, ?_, ?_, ?_, ?_, hcell⟩
    · obtain ⟨x, hx, h⟩ := hM2
      obtain ⟨e, he, rfl⟩ := List.mem_map.mp hx
      exact ⟨_, List.mem_map.mpr ⟨e, he, rfl⟩, by rw [hlen]; exact h⟩
    · intro r hr
      have := hx1 r.2.1 ((hcols r.2.1).mpr ⟨r.1, r.2.2, hr⟩)
      omega
    · have hmem : (rows.flatten.map Prod.fst).foldl max 0 ∈ rows.flatten.map Prod.fst := by
        rcases hx3 with h | h
        · obtain ⟨e, he⟩ := List.exists_mem_of_ne_nil (rows.flatten.map Prod.fst) (by simpa using hflat)
          have := hx1 e he
          rw [h] at this ⊢
          have : e = 0 := by omega
          exact this ▸ he
        · exact h
      obtain ⟨a, w, hw⟩ := (hcols _).mp hmem
      exact ⟨_, hw, rfl⟩
    · intro row hrow
      obtain ⟨a, ha⟩ := List.mem_iff_getElem?.mp hrow
      obtain ⟨_, rfl⟩ := hget a row ha
      exact (dsRow_spec recs a).1

theorem dsToCsr_error (entries : List (Int × Int × R)) (h : entries = [] ∨ ∃ e ∈ entries, e.1 < 0 ∨ e.2.1 < 0) :
    dsToCsr entries = .error .valueError := by
  unfold dsToCsr cooMatrix
  rcases h with rfl | ⟨e, he, hneg⟩
  · rfl
  · by_cases hne : entries = []
    · subst hne; rfl
    · rw [if_neg (by simpa using hne), if_pos (List.any_eq_true.mpr ⟨e, he, decide_eq_true hneg⟩)]
      rfl

variable {K : Type} [LinearOrder K]

/-- Missing identifiers. -/
theorem codedCsr_error (records : List (Option K × Option K × R))
    (h : records = [] ∨ ∃ r ∈ records, r.1 = none ∨ r.2.1 = none) : codedCsr records = .error .valueError := by
  unfold codedCsr
  apply dsToCsr_error
  rcases h with rfl | ⟨r, hr, h⟩
  · exact Or.inl rfl
  · refine Or.inr ⟨_, List.mem_map.mpr ⟨r, hr, rfl⟩, ?_⟩
    rcases h with h | h
    · left; simp [h, categoryCode]
    · right; simp [h, categoryCode]

/-- The matrix of records with identifiers. -/
theorem codedCsr_ok (records : List (K × K × R)) (hne : records ≠ []) :
    ∃ t rows cols, codedCsr (records.map fun r => (some r.1, some r.2.1, r.2.2)) = .ok t ∧
      csrMatrix t = .ok (rows, cols) ∧
      Describes records (categoriesOf (records.map fun r => some r.1))
        (categoriesOf (records.map fun r => some r.2.1)) rows cols := by
  set items := categoriesOf (records.map fun r => some r.1) with hitems
  set users := categoriesOf (records.map fun r => some r.2.1) with husers
  have hi : ∀ r ∈ records, r.1 ∈ items := fun r hr =>
    (mem_categoriesOf _ _).mpr (List.mem_map.mpr ⟨r, hr, rfl⟩)
  have hu : ∀ r ∈ records, r.2.1 ∈ users := fun r hr =>
    (mem_categoriesOf _ _).mpr (List.mem_map.mpr ⟨r, hr, rfl⟩)
  have hni : items.Nodup := nodup_categoriesOf _
  have hnu : users.Nodup := nodup_categoriesOf _
  obtain ⟨t, rows, cols, h1, h2, hm⟩ := dsToCsr_ok
    (records.map fun r => (categoryCode items (some r.1), categoryCode users (some r.2.1), r.2.2))
    (by simpa using hne) (by
      intro e he
      obtain ⟨r, hr, rfl⟩ := List.mem_map.mp he
      exact ⟨Int.natCast_nonneg _, Int.natCast_nonneg _⟩)
  rw [List.map_map] at hm
  set recs : List (Nat × Nat × R) := records.map ((fun e : Int × Int × R => (e.1.toNat, e.2.1.toNat, e.2.2)) ∘
    fun r => (categoryCode items (some r.1), categoryCode users (some r.2.1), r.2.2)) with hrecs
  have hrecs' : recs = records.map fun r => (items.idxOf r.1, users.idxOf r.2.1, r.2.2) := by
    rw [hrecs]; rfl
  have hidx : ∀ {l : List K} (_ : l.Nodup) {k : K} (_ : k ∈ l) {a : Nat} {x : K} (_ : l[a]? = some x),
      (l.idxOf k = a ↔ k = x) := by
    intro l hnd k hk a x hx
    have := categoryCode_some hnd hk a
    constructor
    · intro h
      have h' := this.mp (by show ((l.idxOf k : Nat) : Int) = a; exact_mod_cast h)
      exact Option.some.inj (h'.symm.trans hx)
    · rintro rfl
      have h' := this.mpr hx
      have : ((l.idxOf k : Nat) : Int) = a := h'
      exact_mod_cast this
  have hrowlen : rows.length = items.length := by
    obtain ⟨r, hr, hrl⟩ := hm.rowTight
    rw [hrecs'] at hr
    obtain ⟨q, hq, rfl⟩ := List.mem_map.mp hr
    have h3 := List.idxOf_lt_length_of_mem (hi q hq)
    simp only at hrl
    apply le_antisymm (by omega)
    by_contra hlt
    have hlast : rows.length < items.length := by omega
    have hmem := List.getElem_mem hlast
    obtain ⟨q', hq', hqe⟩ := List.mem_map.mp ((mem_categoriesOf _ _).mp hmem)
    have hb := hm.rowBound (items.idxOf q'.1, users.idxOf q'.2.1, q'.2.2) (by
      rw [hrecs']; exact List.mem_map.mpr ⟨q', hq', rfl⟩)
    have : items.idxOf q'.1 = rows.length :=
      (hidx hni (hi q' hq') (List.getElem?_eq_getElem hlast)).mpr (Option.some.inj hqe)
    simp only at hb
    omega
  have hcollen : cols = users.length := by
    obtain ⟨r, hr, hrl⟩ := hm.colTight
    rw [hrecs'] at hr
    obtain ⟨q, hq, rfl⟩ := List.mem_map.mp hr
    have h3 := List.idxOf_lt_length_of_mem (hu q hq)
    simp only at hrl
    apply le_antisymm (by omega)
    by_contra hlt
    have hlast : cols < users.length := by omega
    have hmem := List.getElem_mem hlast
    obtain ⟨q', hq', hqe⟩ := List.mem_map.mp ((mem_categoriesOf _ _).mp hmem)
    have hb := hm.colBound (items.idxOf q'.1, users.idxOf q'.2.1, q'.2.2) (by
      rw [hrecs']; exact List.mem_map.mpr ⟨q', hq', rfl⟩)
    have : users.idxOf q'.2.1 = cols :=
      (hidx hnu (hu q' hq') (List.getElem?_eq_getElem hlast)).mpr (Option.some.inj hqe)
    simp only at hb
    omega
  refine ⟨t, rows, cols, ?_, h2, ?_⟩
  · unfold codedCsr
    simp only [List.map_map, Function.comp_def]
    exact h1
  · refine ⟨⟨sorted_categoriesOf _, ?_⟩, ⟨sorted_categoriesOf _, ?_⟩, hrowlen, hcollen, hm.sorted, ?_, ?_⟩
    · intro k
      rw [mem_categoriesOf]
      simp
    · intro k
      rw [mem_categoriesOf]
      simp
    · intro row hrow e he
      obtain ⟨a, ha⟩ := List.mem_iff_getElem?.mp hrow
      obtain ⟨⟨w, hw⟩, _⟩ := (hm.cell a e.1 e.2).mp ⟨row, ha, he⟩
      exact hm.colBound _ hw
    · intro a b i u ha hb v
      rw [hm.cell a b v]
      have hiff : (∃ w, (a, b, w) ∈ recs) ↔ ∃ w, (i, u, w) ∈ records := by
        rw [hrecs']
        constructor
        · rintro ⟨w, hw⟩
          obtain ⟨q, hq, hqe⟩ := List.mem_map.mp hw
          obtain ⟨x, y, z⟩ := q
          simp only [Prod.mk.injEq] at hqe
          have e1 := (hidx hni (hi _ hq) ha).mp hqe.1
          have e2 := (hidx hnu (hu _ hq) hb).mp hqe.2.1
          simp only at e1 e2
          exact ⟨z, e1 ▸ e2 ▸ hq⟩
        · rintro ⟨w, hw⟩
          exact ⟨w, List.mem_map.mpr ⟨_, hw, by
            rw [(hidx hni (hi _ hw) ha).mpr rfl, (hidx hnu (hu _ hw) hb).mpr rfl]⟩⟩
      have hsum : recordSum recs a b = recordSum records i u := by
        unfold recordSum
        rw [hrecs', List.filter_map, List.map_map]
        congr 1
        rw [List.filter_congr (q := fun r => decide (r.1 = i ∧ r.2.1 = u))]
        · rfl
        · intro r hr
          simp only [Function.comp]
          exact decide_eq_decide.mpr (and_congr (hidx hni (hi r hr) ha) (hidx hnu (hu r hr) hb))
      rw [hiff, hsum]

end Matrix

/-! ## Tables filled by assignments -/

section Fill

variable {A B : Type}

/-- Assignments to positions of a list, one after the other. -/
def fillList (f : A → Option (Nat × B)) (xs : List A) (l : List B) : List B :=
  xs.foldl (fun l x => match f x with
    | none => l
    | some e => l.set e.1 e.2) l

theorem fillList_length (f : A → Option (Nat × B)) (xs : List A) (l : List B) : (fillList f xs l).length = l.length := by
  unfold fillList
  induction xs generalizing l with
  | nil => rfl
  | cons x xs ih =>
    rw [List.foldl_cons, ih]
    split <;> simp

theorem fillList_none (f : A → Option (Nat × B)) (xs : List A) (l : List B) (a : Nat)
    (h : ∀ x ∈ xs, ∀ b, f x ≠ some (a, b)) : (fillList f xs l)[a]? = l[a]? := by
  unfold fillList
  induction xs generalizing l with
  | nil => rfl
  | cons x xs ih =>
    rw [List.foldl_cons, ih _ fun y hy => h y (List.mem_cons_of_mem _ hy)]
    split
    · rfl
    · rename_i e he
      rw [List.getElem?_set_ne]
      intro hea
      exact h x (List.mem_cons_self ..) e.2 (by rw [he, ← hea])

theorem fillList_last (f : A → Option (Nat × B)) (pre post : List A) (x : A) (l : List B) (a : Nat) (b : B)
    (ha : a < l.length) (hx : f x = some (a, b)) (h : ∀ y ∈ post, ∀ b', f y ≠ some (a, b')) :
    (fillList f (pre ++ x :: post) l)[a]? = some b := by
  have hsplit : fillList f (pre ++ x :: post) l = fillList f post ((fillList f pre l).set a b) := by
    unfold fillList
    rw [List.foldl_append, List.foldl_cons, hx]
  rw [hsplit, fillList_none f post _ a h]
  rw [List.getElem?_set_self]
  rw [fillList_length]
  exact ha

end Fill

end Implicit
