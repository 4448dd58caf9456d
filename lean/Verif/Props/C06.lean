import Verif.Props.C05

/-!
# C06 — invalid query arguments raise and never produce an answer
-/

set_option linter.unusedSectionVars false

namespace Implicit

variable {R : Type} [LinearOrder R] [Field R] {f : Nat}

/-- **C06**: `user_items` missing, or without exactly one row per requested user, raises `ValueError`
whenever it is used. -/
theorem C06_user_items_rows (H : HeapImpl (R × Nat) pairLt) (neginf : R) (m : Factors f R)
    (recalc : SpRows R → Except Err (List (Vec f R))) (ids : Ids) (ui : Option (SpRows R)) (N : Nat)
    (fl : Bool) (fi : Option PyFilter) (rc : Bool) (items : Option (List Int))
    (hused : fl = true ∨ rc = true) (hbad : ∀ M, ui = some M → M.length ≠ ids.count) :
    recommend H neginf m recalc ids ui N fl fi rc items = .error .valueError := by
  have hb : (fl || rc) = true := by simpa using hused
  have : checkUserItems ids ui (fl || rc) = .error .valueError := by
    unfold checkUserItems
    rw [if_pos hb]
    cases ui with
    | none => rfl
    | some M => simp only; rw [if_neg (hbad M rfl)]
  unfold recommend
  rw [this]
  rfl

/-- The filter argument carries at least one id that python sees as "set".  (A one-element numpy array
`[0]` does not count: see `C06_array_filter_violated`.) -/
def FilterSet : PyFilter → Prop
  | .list l => l ≠ []
  | .array [x] => x ≠ 0
  | .array l => 2 ≤ l.length

omit [LinearOrder R] [Field R] in
theorem truthy_of_set {p : PyFilter} (h : FilterSet p) :
    p.truthy = .ok true ∨ p.truthy = .error .valueError := by
  match p, h with
  | .list l, h =>
    left
    cases l with
    | nil => exact absurd rfl h
    | cons a l => rfl
  | .array [x], h =>
    left
    have h' : x ≠ 0 := h
    simp [PyFilter.truthy, h']
  | .array (x :: y :: l), _ => right; rfl
  | .array [], h => simp [FilterSet] at h

theorem restrictItems_both {m : Factors f R} {N : Nat} {p : PyFilter} (h : FilterSet p)
    (S : List Int) : restrictItems m N (some p) (some S) = .error .valueError := by
  unfold restrictItems
  simp only [truthyOpt]
  rcases truthy_of_set h with h | h <;> rw [h] <;> rfl

/-- A failing step makes the whole call fail. -/
theorem recommend_error_of_restrict {H : HeapImpl (R × Nat) pairLt} {neginf : R} {m : Factors f R}
    {recalc : SpRows R → Except Err (List (Vec f R))} {ids : Ids} {ui : Option (SpRows R)} {N : Nat}
    {fl : Bool} {fi : Option PyFilter} {rc : Bool} {items : Option (List Int)} {e : Err}
    (h : restrictItems m N fi items = .error e) :
    (∃ e', recommend H neginf m recalc ids ui N fl fi rc items = .error e') ∧
    ((checkUserItems ids ui (fl || rc) = .ok ()) →
      (∃ X, userFactor m recalc ids ui rc = .ok X) →
      recommend H neginf m recalc ids ui N fl fi rc items = .error e) := by
  constructor
  · cases hr : recommend H neginf m recalc ids ui N fl fi rc items with
    | error e' => exact ⟨e', rfl⟩
    | ok a =>
      obtain ⟨_, _, _, _, _, _, _, _, h3, _⟩ := recommend_ok_inv hr
      rw [h] at h3; cases h3
  · rintro h1 ⟨X, h2⟩
    unfold recommend
    rw [h1, h2, h]
    rfl

/-- **C06**: `items` together with a `filter_items` never gives an answer; it raises `ValueError`
unless an earlier check already raised. -/
theorem C06_items_and_filter (H : HeapImpl (R × Nat) pairLt) (neginf : R) (m : Factors f R)
    (recalc : SpRows R → Except Err (List (Vec f R))) (ids : Ids) (ui : Option (SpRows R)) (N : Nat)
    (fl : Bool) (p : PyFilter) (hp : FilterSet p) (rc : Bool) (S : List Int) :
    (∃ e, recommend H neginf m recalc ids ui N fl (some p) rc (some S) = .error e) ∧
    ((checkUserItems ids ui (fl || rc) = .ok ()) →
      (∃ X, userFactor m recalc ids ui rc = .ok X) →
      recommend H neginf m recalc ids ui N fl (some p) rc (some S) = .error .valueError) :=
  recommend_error_of_restrict (restrictItems_both hp S)

theorem gatherInt_cases {α : Type} (l : List α) : ∀ is : List Int,
    (∃ xs, gatherInt l is = .ok xs) ∨ gatherInt l is = .error .indexError
  | [] => Or.inl ⟨[], rfl⟩
  | i :: is => by
    unfold gatherInt
    have hp : (∃ x, pyIndex l i = .ok x) ∨ pyIndex l i = .error .indexError := by
      unfold pyIndex
      generalize (if i < 0 then i + (l.length : Int) else i) = j
      simp only
      by_cases h1 : j < 0
      · rw [if_pos h1]; exact Or.inr rfl
      · rw [if_neg h1]
        cases l[j.toNat]? with
        | none => exact Or.inr rfl
        | some x => exact Or.inl ⟨x, rfl⟩
    rcases hp with ⟨x, hx⟩ | hx
    · rw [hx]
      rcases gatherInt_cases l is with ⟨xs, h⟩ | h
      · exact Or.inl ⟨x :: xs, by rw [h]; rfl⟩
      · exact Or.inr (by rw [h]; rfl)
    · exact Or.inr (by rw [hx]; rfl)

theorem restrictItems_out {m : Factors f R} {N : Nat} {fi : Option PyFilter}
    (hfi : truthyOpt fi = .ok false) {S : List Int} {i : Int} (hi : i ∈ S)
    (hout : i < 0 ∨ (m.item.length : Int) ≤ i) :
    restrictItems m N fi (some S) = .error .indexError := by
  unfold restrictItems
  simp only [hfi, bind, Except.bind]
  set T := S.insertionSort (· ≤ ·) with hT
  have hiT : i ∈ T := by simpa [hT] using hi
  have hc : checkItems m.item.length T = .error .indexError := by
    unfold checkItems
    rw [if_neg (by intro h; rw [List.isEmpty_iff] at h; rw [h] at hiT; simp at hiT), if_pos]
    simp only [Bool.or_eq_true, List.any_eq_true, decide_eq_true_eq]
    rcases hout with h | h
    · exact Or.inr ⟨i, hiT, h⟩
    · exact Or.inl ⟨i, hiT, h⟩
  rcases gatherInt_cases m.item T with ⟨xs, h⟩ | h
  · rw [h]; simp only; rw [hc]; rfl
  · rw [h]; rfl

/-- **C06**: an id outside the catalogue in `items` (also a negative one, although numpy would accept
it) never gives an answer; it raises `IndexError` unless an earlier check already raised. -/
theorem C06_items_range (H : HeapImpl (R × Nat) pairLt) (neginf : R) (m : Factors f R)
    (recalc : SpRows R → Except Err (List (Vec f R))) (ids : Ids) (ui : Option (SpRows R)) (N : Nat)
    (fl : Bool) (fi : Option PyFilter) (hfi : truthyOpt fi = .ok false) (rc : Bool)
    (S : List Int) (i : Int) (hi : i ∈ S) (hout : i < 0 ∨ (m.item.length : Int) ≤ i) :
    (∃ e, recommend H neginf m recalc ids ui N fl fi rc (some S) = .error e) ∧
    ((checkUserItems ids ui (fl || rc) = .ok ()) →
      (∃ X, userFactor m recalc ids ui rc = .ok X) →
      recommend H neginf m recalc ids ui N fl fi rc (some S) = .error .indexError) :=
  recommend_error_of_restrict (restrictItems_out hfi hi hout)

theorem gather_total {α : Type} (l : List α) : ∀ is : List Nat, (∀ i ∈ is, i < l.length) →
    ∃ xs, gather l is = .ok xs
  | [], _ => ⟨[], rfl⟩
  | i :: is, h => by
    obtain ⟨xs, e⟩ := gather_total l is (fun j hj => h j (by simp [hj]))
    refine ⟨l[i]'(h i (by simp)) :: xs, ?_⟩
    unfold gather
    rw [List.getElem?_eq_getElem (h i (by simp)), e]; rfl

/-- **C06** (converse): a call with valid arguments returns.  Valid means: `N ≥ 1`, known users, a
non-empty catalogue, one `user_items` row per user when it is used, no id outside the catalogue in
`user_items` or `filter_items`, and `items` (non-empty, inside the catalogue) not combined with
`filter_items`. -/
theorem C06_valid_returns (H : HeapImpl (R × Nat) pairLt) (neginf : R) (m : Factors f R)
    (recalc : SpRows R → Except Err (List (Vec f R))) (ids : Ids) (ui : SpRows R) (N : Nat)
    (fl : Bool) (fi : Option PyFilter) (items : Option (List Int))
    (hN : 1 ≤ N) (hids : ∀ u ∈ ids.toList, u < m.user.length) (hcat : m.item ≠ [])
    (hrows : ui.length = ids.count)
    (hliked : ∀ row ∈ ui, ∀ e ∈ row, e.1 < m.item.length)
    (hfi : ∀ p, fi = some p → items = none ∧ ∀ i ∈ p.ids, i < m.item.length)
    (hitems : ∀ S, items = some S → S ≠ [] ∧ ∀ i ∈ S, 0 ≤ i ∧ i < m.item.length) :
    ∃ ans, recommend H neginf m recalc ids (some ui) N fl fi false items = .ok ans := by
  obtain ⟨X, hX⟩ := gather_total m.user ids.toList hids
  have hXl := gather_length hX
  have hcheck : checkUserItems ids (some ui) (fl || false) = .ok () := by
    unfold checkUserItems
    split_ifs
    · simp [hrows]
    · rfl
  have hcount : ids.toList.length = ids.count := by cases ids <;> rfl
  -- a successful masking step is enough
  suffices hmain : ∃ N' fac its, restrictItems m N fi items = .ok (N', fac, its) ∧ 1 ≤ N' ∧
      fac ≠ [] ∧ (∀ idx, idx < X.length →
        FiltersOk fac.length (likedPositions fl (some ui) its) (fi.map PyFilter.ids) idx) ∧
      (∀ s : List R, s.length = fac.length →
        ∃ t, remapRow its (padRow N' (sel H N' s)) = .ok t) by
    obtain ⟨N', fac, its, hres, hN', hfac, hf, hremap⟩ := hmain
    have hS : ∀ idx q, X[idx]? = some q → maskedRow neginf fac none
        (likedPositions fl (some ui) its) (fi.map PyFilter.ids) idx q =
        .ok (mask neginf (badAt (likedPositions fl (some ui) its) (fi.map PyFilter.ids) idx)
          (fac.map (dot (X[idx]?.getD q)))) := by
      intro idx q hq
      have hlt := (List.getElem?_eq_some_iff.mp hq).1
      rw [hq, Option.getD_some]
      exact maskedRow_eq neginf (scoreRow_none fac q) (by simpa using hf idx hlt)
    have hS' : ∃ S : Nat → List R, (∀ idx q, X[idx]? = some q → maskedRow neginf fac none
        (likedPositions fl (some ui) its) (fi.map PyFilter.ids) idx q = .ok (S idx)) ∧
        ∀ idx, (S idx).length = fac.length := by
      refine ⟨fun idx => mask neginf (badAt (likedPositions fl (some ui) its)
        (fi.map PyFilter.ids) idx) (fac.map (dot (X[idx]?.getD (fun _ => 0)))), ?_, ?_⟩
      · intro idx q hq
        rw [hS idx q hq]; simp only [hq, Option.getD_some]
      · intro idx; simp [length_mask]
    obtain ⟨S, hS1, hS2⟩ := hS'
    have hT : ∀ r, ∃ t, remapRow its (padRow N' (sel H N' (S r))) = .ok t :=
      fun r => hremap _ (hS2 r)
    choose T hT using hT
    have := recommend_eq H neginf (recalc := recalc) (T := T) hcheck
      (X := X) (by simpa [userFactor] using hX) hres hN' hfac hS1 (fun r _ => hT r)
    rw [this]
    cases ids with
    | many us => exact ⟨_, rfl⟩
    | one u =>
      have h1 : X.length = 1 := by simpa [Ids.toList] using hXl
      rw [h1]
      exact ⟨_, rfl⟩
  cases items with
  | none =>
    refine ⟨N, m.item, none, rfl, hN, hcat, ?_, fun s _ => ⟨_, rfl⟩⟩
    intro idx hidx
    constructor
    · intro rows hr
      cases fl with
      | false => simp [likedPositions] at hr
      | true =>
        simp [likedPositions] at hr
        subst hr
        have hlt : idx < ui.length := by omega
        refine ⟨ui[idx].map Prod.fst, by simp [List.getElem?_eq_getElem hlt], ?_⟩
        intro i hi
        obtain ⟨e, he, rfl⟩ := List.mem_map.mp hi
        exact hliked _ (List.getElem_mem hlt) e he
    · intro l hl
      cases fi with
      | none => simp at hl
      | some p =>
        simp at hl; subst hl
        exact (hfi p rfl).2
  | some S =>
    obtain ⟨hne, hS⟩ := hitems S rfl
    have hfn : fi = none := by
      cases fi with
      | none => rfl
      | some p => exact absurd (hfi p rfl).1 (by simp)
    subst hfn
    obtain ⟨fac, hres, hflen, hfac⟩ := restrictItems_ok (m := m) (N := N) (fi := none) rfl hne hS
    have hSl : 1 ≤ S.length := List.length_pos_iff.mpr hne
    have hfne : fac ≠ [] := by intro h; rw [h] at hflen; simp at hflen; omega
    refine ⟨_, fac, _, hres, by omega, hfne, ?_, ?_⟩
    · intro idx hidx
      constructor
      · intro rows hr
        cases fl with
        | false => simp [likedPositions] at hr
        | true =>
          simp [likedPositions] at hr
          subst hr
          have hlt : idx < ui.length := by omega
          refine ⟨(filterItemsRow (sortedIds S) ui[idx]).map Prod.fst,
            by simp [List.getElem?_eq_getElem hlt], ?_⟩
          intro i hi
          obtain ⟨q, hq, rfl⟩ := List.mem_map.mp hi
          unfold filterItemsRow at hq
          obtain ⟨hq1, _⟩ := List.mem_filter.mp hq
          obtain ⟨e, _, rfl⟩ := List.mem_map.mp hq1
          have hl := length_sortedIds S
          simp only
          split_ifs <;> simp only <;> omega
      · intro l hl; simp at hl
    · intro s hs
      have hN' : 1 ≤ min N S.length := by omega
      refine ⟨_, remapRow_some ?_⟩
      intro p hp
      have hl := length_sortedIds S
      unfold padRow at hp
      rcases List.mem_append.mp hp with hp | hp
      · obtain ⟨q, hq, rfl⟩ := List.mem_map.mp hp
        have := (sel_topk H hN' s).faithful q hq
        have := (List.getElem?_eq_some_iff.mp this).1
        simp only [Prod.fst_swap]; omega
      · have := (List.mem_replicate.mp hp).2
        rw [this]; simp; omega

/-- **C06 is violated** when `filter_items` is the one-element numpy array `[0]` (python regards it as
false): no error is raised together with `items`, and instead of item 0 the item at position 0 of the
sorted `items`, here item 1, is filtered. -/
theorem C06_array_filter_violated (H : HeapImpl (Rat × Nat) pairLt) :
    recommend H (-1000) c04Model noRecalc (.one 0) none 2 false (some (.array [0])) false
      (some [2, 1]) = .ok (.one [(2, 3), (1, -1000)]) := by
  have hsel : ∀ k s, sel H k s = sel (insertionHeap (R := Rat)) k s := by
    intro k s; unfold sel; rw [C01_select_heap_independent H insertionHeap]
  refine recommend_one H _ (s := [-1000, 3]) (x := ![1]) (N' := 2)
      (fac := [![2], ![3]]) (its := some [1, 2]) rfl (userFactor_stored rfl)
      (by decide +kernel) (by omega) (by simp) (by decide +kernel) ?_
  rw [hsel]; decide +kernel

/-- **C06 is also violated** for `N = 0` and for an empty list `items=[]`: these raise
although no listed condition holds. -/
theorem C06_zero_violated (H : HeapImpl (Rat × Nat) pairLt) :
    recommend H (-1000) c04Model noRecalc (.one 0) none 0 false none false none =
      .error .indexError ∧
    recommend H (-1000) c04Model noRecalc (.one 0) none 3 false none false (some []) =
      .error .valueError := by
  constructor
  · rfl
  · exact (recommend_error_of_restrict (by decide +kernel)).2 rfl ⟨_, userFactor_stored rfl⟩

/-- Instances of the hypotheses: a set filter, an id out of range, a valid batch. -/
example : FilterSet (.list [0]) ∧ FilterSet (.array [3, 4]) ∧ ((-1 : Int) ∈ [2, -1]) := by
  refine ⟨by simp [FilterSet], by simp [FilterSet], by simp⟩

example : (∀ u ∈ (Ids.many [0, 0]).toList, u < c04Model.user.length) ∧ c04Model.item ≠ [] ∧
    ([[], [(2, (1 : Rat))]] : SpRows Rat).length = (Ids.many [0, 0]).count := by
  refine ⟨by simp [Ids.toList, c04Model], by simp [c04Model], rfl⟩

end Implicit
