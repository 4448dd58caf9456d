import Verif.Model.BPR
import Mathlib.Tactic.Linarith

namespace Implicit

/-! ## Binary search -/

theorem lowerBound_spec (a : List Nat) (val : Nat) (fuel first len : Nat) (hf : len ≤ fuel)
    (hb : first + len ≤ a.length)
    (hs : ∀ (i j x y : Nat), first ≤ i → i ≤ j → j < first + len → a[i]? = some x → a[j]? = some y →
      x ≤ y) :
    ∃ p, lowerBound a val fuel first len = .ok p ∧ first ≤ p ∧ p ≤ first + len ∧
      (∀ (i x : Nat), first ≤ i → i < p → a[i]? = some x → x < val) ∧
      (∀ (i x : Nat), p ≤ i → i < first + len → a[i]? = some x → val ≤ x) := by
  induction fuel generalizing first len with
  | zero =>
    have : len = 0 := by omega
    subst this
    exact ⟨first, rfl, le_refl _, by omega, fun i x h1 h2 => by omega, fun i x h1 h2 => by omega⟩
  | succ fuel ih =>
    unfold lowerBound
    by_cases h0 : len = 0
    · rw [if_pos h0]
      exact ⟨first, rfl, le_refl _, by omega, fun i x h1 h2 => by omega, fun i x h1 h2 => by omega⟩
    · rw [if_neg h0]
      have hlt : first + len / 2 < a.length := by omega
      dsimp only
      rw [List.getElem?_eq_getElem hlt]
      dsimp only
      have hmid : a[first + len / 2]? = some a[first + len / 2] := List.getElem?_eq_getElem hlt
      by_cases hx : a[first + len / 2] < val
      · rw [if_pos hx]
        obtain ⟨p, h1, h2, h3, h4, h5⟩ := ih (first + len / 2 + 1) (len - len / 2 - 1) (by omega)
          (by omega) (fun i j x y hi hij hj => hs i j x y (by omega) hij (by omega))
        refine ⟨p, h1, by omega, by omega, fun i x hi hip hix => ?_, fun i x hi hip => h5 i x hi (by omega)⟩
        by_cases hc : first + len / 2 + 1 ≤ i
        · exact h4 i x hc hip hix
        · exact lt_of_le_of_lt (hs i (first + len / 2) _ _ hi (by omega) (by omega) hix hmid) hx
      · rw [if_neg hx]
        obtain ⟨p, h1, h2, h3, h4, h5⟩ := ih first (len / 2) (by omega)
          (by omega) (fun i j x y hi hij hj => hs i j x y (by omega) hij (by omega))
        refine ⟨p, h1, by omega, by omega, h4, fun i x hi hip hix => ?_⟩
        by_cases hc : i < first + len / 2
        · exact h5 i x hi hc hix
        · exact le_trans (not_lt.mp hx)
            (hs (first + len / 2) i _ _ (by omega) (by omega) hip hmid hix)

theorem binarySearch_spec (a : List Nat) (first last val : Nat) (hfl : first ≤ last)
    (hb : last ≤ a.length)
    (hs : ∀ (i j x y : Nat), first ≤ i → i ≤ j → j < last → a[i]? = some x → a[j]? = some y → x ≤ y) :
    ∃ b, binarySearch a first last val = .ok b ∧
      (b = true ↔ ∃ i, first ≤ i ∧ i < last ∧ a[i]? = some val) := by
  obtain ⟨p, h1, h2, h3, h4, h5⟩ := lowerBound_spec a val (last - first) first (last - first)
    (le_refl _) (by omega) (fun i j x y hi hij hj => hs i j x y hi hij (by omega))
  unfold binarySearch
  rw [h1]
  simp only [bind, Except.bind, pure, Except.pure]
  by_cases hp : p = last
  · rw [if_pos hp]
    refine ⟨false, rfl, ?_⟩
    simp only [Bool.false_eq_true, false_iff, not_exists, not_and]
    intro i hi hl hv
    exact absurd (h4 i val hi (by omega) hv) (lt_irrefl _)
  · rw [if_neg hp]
    have hlt : p < a.length := by omega
    rw [List.getElem?_eq_getElem hlt]
    refine ⟨_, rfl, ?_⟩
    have hpe : a[p]? = some a[p] := List.getElem?_eq_getElem hlt
    have hge := h5 p _ (le_refl _) (by omega) hpe
    rw [decide_eq_true_iff, not_lt]
    constructor
    · intro h
      exact ⟨p, h2, by omega, by rw [hpe, le_antisymm h hge]⟩
    · rintro ⟨i, hi, hil, hv⟩
      have hpi : p ≤ i := by
        by_contra hc
        exact absurd (h4 i val hi (by omega) hv) (lt_irrefl _)
      exact hs p i _ _ h2 hpi hil hpe hv

/-! ## Flat arrays of a CSR matrix -/

theorem scanl_sum_getElem? (lens : List Nat) (s u : Nat) (h : u ≤ lens.length) :
    (lens.scanl (· + ·) s)[u]? = some (s + (lens.take u).sum) := by
  induction lens generalizing s u with
  | nil =>
    have : u = 0 := by simpa using h
    subst this; simp
  | cons l lens ih =>
    cases u with
    | zero => simp
    | succ u =>
      rw [List.scanl_cons]
      simp only [List.getElem?_cons_succ]
      rw [ih (s + l) u (by simpa using h)]
      simp [Nat.add_assoc]

theorem indptrOf_getElem? (rows : List (List Nat)) (u : Nat) (h : u ≤ rows.length) :
    (indptrOf rows)[u]? = some (rows.take u).flatten.length := by
  unfold indptrOf
  rw [scanl_sum_getElem? _ _ _ (by simpa using h)]
  simp [List.length_flatten, List.map_take]

theorem flatten_window (rows : List (List Nat)) (u : Nat) (r : List Nat) (h : rows[u]? = some r)
    (k : Nat) (hk : k < r.length) :
    rows.flatten[(rows.take u).flatten.length + k]? = r[k]? := by
  obtain ⟨hu, hr⟩ := List.getElem?_eq_some_iff.mp h
  have hsplit : rows = rows.take u ++ r :: rows.drop (u + 1) := by
    rw [← hr, List.cons_getElem_drop_succ, List.take_append_drop]
  have hfl : rows.flatten = (rows.take u).flatten ++ (r ++ (rows.drop (u + 1)).flatten) := by
    conv_lhs => rw [hsplit]
    simp
  rw [hfl, List.getElem?_append_right (by omega), Nat.add_sub_cancel_left,
    List.getElem?_append_left hk]

theorem indptr_succ (rows : List (List Nat)) (u : Nat) (r : List Nat) (h : rows[u]? = some r) :
    (rows.take (u + 1)).flatten.length = (rows.take u).flatten.length + r.length := by
  obtain ⟨hu, hr⟩ := List.getElem?_eq_some_iff.mp h
  rw [List.take_add_one, h]
  simp

theorem indptr_le (rows : List (List Nat)) (u : Nat) :
    (rows.take u).flatten.length ≤ rows.flatten.length := by
  conv_rhs => rw [← List.take_append_drop u rows, List.flatten_append, List.length_append]
  omega

/-- The lookup is exact on rows with sorted columns. -/
theorem hasNonZero_spec (rows : List (List Nat)) (u : Nat) (r : List Nat) (h : rows[u]? = some r)
    (hs : r.Pairwise (· ≤ ·)) (col : Nat) :
    ∃ b, hasNonZero (indptrOf rows) rows.flatten u col = .ok b ∧ (b = true ↔ col ∈ r) := by
  obtain ⟨hu, hr⟩ := List.getElem?_eq_some_iff.mp h
  unfold hasNonZero
  rw [indptrOf_getElem? rows u (by omega), indptrOf_getElem? rows (u + 1) (by omega)]
  dsimp only
  set s := (rows.take u).flatten.length with hsdef
  have hsucc : (rows.take (u + 1)).flatten.length = s + r.length := indptr_succ rows u r h
  have hwin : ∀ k, k < r.length → rows.flatten[s + k]? = r[k]? := flatten_window rows u r h
  have hle := indptr_le rows (u + 1)
  rw [hsucc] at hle ⊢
  obtain ⟨b, hb, hiff⟩ := binarySearch_spec rows.flatten s (s + r.length) col (by omega) hle (by
    intro i j x y hi hij hj hx hy
    have hx' : r[i - s]? = some x := by
      rw [← hwin (i - s) (by omega), Nat.add_sub_cancel' hi]; exact hx
    have hy' : r[j - s]? = some y := by
      rw [← hwin (j - s) (by omega), Nat.add_sub_cancel' (by omega)]; exact hy
    obtain ⟨h1, rfl⟩ := List.getElem?_eq_some_iff.mp hx'
    obtain ⟨h2, rfl⟩ := List.getElem?_eq_some_iff.mp hy'
    rcases Nat.lt_or_ge (i - s) (j - s) with hlt | hge
    · exact List.pairwise_iff_getElem.mp hs _ _ h1 h2 hlt
    · have : i - s = j - s := by omega
      simp [this])
  refine ⟨b, hb, hiff.trans ?_⟩
  constructor
  · rintro ⟨i, hi, hil, hv⟩
    have : r[i - s]? = some col := by
      rw [← hwin (i - s) (by omega), Nat.add_sub_cancel' hi]; exact hv
    exact List.mem_of_getElem? this
  · intro hm
    obtain ⟨k, hk, hv⟩ := List.getElem_of_mem hm
    exact ⟨s + k, by omega, by omega, by rw [hwin k hk, List.getElem?_eq_getElem hk, hv]⟩

theorem userids_aux (rows : List (List Nat)) (n l x : Nat) (h : rows.flatten[l]? = some x) :
    ∃ (u : Nat) (r : List Nat),
      ((rows.zipIdx n).flatMap fun p => List.replicate p.1.length p.2)[l]? = some (n + u) ∧
        rows[u]? = some r ∧ x ∈ r := by
  induction rows generalizing n l with
  | nil => simp at h
  | cons r rows ih =>
    rw [List.zipIdx_cons, List.flatMap_cons]
    rw [List.flatten_cons] at h
    by_cases hl : l < r.length
    · rw [List.getElem?_append_left hl] at h
      refine ⟨0, r, ?_, rfl, List.mem_of_getElem? h⟩
      rw [List.getElem?_append_left (by simpa using hl)]
      simp [hl]
    · rw [List.getElem?_append_right (by omega)] at h
      obtain ⟨u, r', h1, h2, h3⟩ := ih (n + 1) (l - r.length) h
      refine ⟨u + 1, r', ?_, by simpa using h2, h3⟩
      rw [List.getElem?_append_right (by simpa using hl)]
      simp only [List.length_replicate]
      rw [h1]
      simp; omega

/-- `userids[l]` is the row holding stored entry `l`. -/
theorem userids_spec (rows : List (List Nat)) (l x : Nat) (h : rows.flatten[l]? = some x) :
    ∃ (u : Nat) (r : List Nat), (useridsOf rows)[l]? = some u ∧ rows[u]? = some r ∧ x ∈ r := by
  obtain ⟨u, r, h1, h2, h3⟩ := userids_aux rows 0 l x h
  exact ⟨u, r, by simpa [useridsOf] using h1, h2, h3⟩

/-- Sorting keeps the content of every row. -/
theorem bprRows_spec (verify : Bool) (rows : List (List Nat)) :
    (bprRows verify rows).length = rows.length ∧
    (∀ (u : Nat) (r : List Nat), (bprRows verify rows)[u]? = some r →
      ∃ r', rows[u]? = some r' ∧ r.Perm r' ∧ (verify = true → r.Pairwise (· ≤ ·))) := by
  unfold bprRows
  by_cases hc : (verify && !(rows.all fun r => decide (r.Pairwise (· ≤ ·)))) = true
  · rw [if_pos hc]
    refine ⟨by simp, fun u r h => ?_⟩
    rw [List.getElem?_map] at h
    obtain ⟨r', h1, rfl⟩ := Option.map_eq_some_iff.mp h
    exact ⟨r', h1, List.perm_insertionSort _ _, fun _ => List.pairwise_insertionSort _ _⟩
  · rw [if_neg hc]
    refine ⟨rfl, fun u r h => ⟨r, h, List.Perm.refl _, fun hv => ?_⟩⟩
    simp only [hv, Bool.true_and, Bool.not_eq_true', Bool.not_eq_false,
      List.all_eq_true, decide_eq_true_eq] at hc
    exact hc r (List.mem_of_getElem? h)

/-! ## What a sample may be -/

theorem bprChoose_ok (verify : Bool) (rows : List (List Nat))
    (hs : verify = true → ∀ r ∈ rows, r.Pairwise (· ≤ ·)) (l d : Nat)
    (hl : l < rows.flatten.length) (hd : d < rows.flatten.length) :
    ∃ (u i j : Nat) (r : List Nat), rows.flatten[l]? = some i ∧ (useridsOf rows)[l]? = some u ∧
      rows.flatten[d]? = some j ∧ rows[u]? = some r ∧ i ∈ r ∧
      bprChoose verify rows l d =
        .ok (if verify = true ∧ j ∈ r then none else some ⟨u, i, j⟩) := by
  have h1 := List.getElem?_eq_getElem hl
  have h2 := List.getElem?_eq_getElem hd
  obtain ⟨u, r, hu, hr, hi⟩ := userids_spec rows l _ h1
  refine ⟨u, _, _, r, h1, hu, h2, hr, hi, ?_⟩
  unfold bprChoose
  rw [h1, h2, hu]
  dsimp only
  cases verify with
  | false => simp [pure, Except.pure]
  | true =>
    obtain ⟨b, hb, hiff⟩ := hasNonZero_spec rows u r hr (hs rfl r (List.mem_of_getElem? hr))
      rows.flatten[d]
    simp only [if_true, hb, bind, Except.bind, pure, Except.pure]
    by_cases hm : rows.flatten[d] ∈ r
    · rw [hiff.mpr hm]; simp [hm]
    · have : b = false := by
        cases b with
        | false => rfl
        | true => exact absurd (hiff.mp rfl) hm
      rw [this]; simp [hm]

theorem mem_streamOf {Th I : Type} [DecidableEq Th] {w : List (Th × I)} {p : Th × I} (hp : p ∈ w) :
    p.2 ∈ streamOf p.1 w := by
  unfold streamOf
  exact List.mem_map.mpr ⟨p, List.mem_filter.mpr ⟨hp, by simp⟩, rfl⟩

end Implicit
