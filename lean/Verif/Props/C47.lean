import Verif.Props.C03

/-!
# C47 — `recommend_all` gives each user the answer `recommend` gives
-/

namespace Implicit

variable {R : Type} [LinearOrder R] [Field R] {f : Nat}

/-- Without filtering of liked items and without recalculation the interactions are not read. -/
theorem recommend_ignores (H : HeapImpl (R × Nat) pairLt) (neginf : R) (m : Factors f R)
    (recalc : SpRows R → Except Err (List (Vec f R))) (ids : Ids) (ui ui' : Option (SpRows R))
    (N : Nat) (fi : Option PyFilter) (items : Option (List Int)) :
    recommend H neginf m recalc ids ui N false fi false items =
      recommend H neginf m recalc ids ui' N false fi false items := by
  unfold recommend checkUserItems userFactor likedPositions
  simp

/-- **C47**, whenever the interactions are not needed or the offset is zero: if `recommend_all`
returns, it has one row per row of `user_items`, and row `r` lists the ids that `recommend` returns
for user `r + offset` with row `r` of `user_items`. -/
theorem C47_recommend_all_partial (H : HeapImpl (R × Nat) pairLt) (neginf : R) (m : Factors f R)
    (recalc : SpRows R → Except Err (List (Vec f R)))
    (g : List (Nat × R) → Except Err (Vec f R)) (hrec : ∀ rows, recalc rows = rows.mapM g)
    (ui : SpRows R) (N : Nat) (recalculate fl : Bool) (fi : Option PyFilter) (offset : Nat)
    (hoff : offset = 0 ∨ (fl = false ∧ recalculate = false)) (out : List (List Nat))
    (h : recommendAll H neginf m recalc ui N recalculate fl fi offset = .ok out) :
    out.length = ui.length ∧
      ∀ (r : Nat) (row : List (Nat × R)), ui[r]? = some row → ∃ ans,
        recommend H neginf m recalc (.one (r + offset)) (some [row]) N fl fi recalculate none =
          .ok (.one ans) ∧ out[r]? = some (ans.map Prod.fst) := by
  unfold recommendAll at h
  simp only [bind, Except.bind] at h
  generalize hadj : (if offset ≠ 0 then List.replicate offset [] ++ ui else ui) = adj at h
  cases hr : recommend H neginf m recalc (.many ((List.range ui.length).map fun r => r + offset))
      (some adj) N fl fi recalculate none with
  | error e => rw [hr] at h; cases h
  | ok a =>
    rw [hr] at h
    obtain ⟨rows, rfl, hl, hrows⟩ := C03_recommend_batch H neginf m recalc g hrec _ _ _ _ _ _ _ _ hr
    cases h
    simp only [List.length_map, List.length_range] at hl
    refine ⟨by simpa using hl, ?_⟩
    intro r row hrow
    have hlt : r < ui.length := (List.getElem?_eq_some_iff.mp hrow).1
    obtain ⟨ans, e1, e2⟩ := hrows r (r + offset) (by simp [hlt])
    refine ⟨ans, ?_, by simp [e1]⟩
    rw [← e2]
    rcases hoff with h0 | ⟨rfl, rfl⟩
    · subst h0
      have hadj' : ui = adj := hadj
      subst hadj'
      simp [rowMatrix, hrow]
    · exact recommend_ignores ..

/-- **C47** (converse, offset 0): if every single query returns then `recommend_all` returns. -/
theorem C47_recommend_all_complete_partial (H : HeapImpl (R × Nat) pairLt) (neginf : R)
    (m : Factors f R) (recalc : SpRows R → Except Err (List (Vec f R)))
    (g : List (Nat × R) → Except Err (Vec f R)) (hrec : ∀ rows, recalc rows = rows.mapM g)
    (ui : SpRows R) (hne : ui ≠ []) (N : Nat) (recalculate fl : Bool) (fi : Option PyFilter)
    (h : ∀ (r : Nat) (row : List (Nat × R)), ui[r]? = some row → ∃ ans,
        recommend H neginf m recalc (.one r) (some [row]) N fl fi recalculate none =
          .ok (.one ans)) :
    ∃ out, recommendAll H neginf m recalc ui N recalculate fl fi 0 = .ok out := by
  have hus : ((List.range ui.length).map fun r => r + 0) ≠ [] := by simpa using hne
  obtain ⟨rows, e⟩ := C03_recommend_batch_complete H neginf m recalc g hrec
    ((List.range ui.length).map fun r => r + 0) hus ui (by simp) N fl fi recalculate none (by
      intro r u hu
      have hlt : r < ui.length := by
        have := (List.getElem?_eq_some_iff.mp hu).1; simpa using this
      have hru : u = r := by simp [hlt] at hu; exact hu.symm
      subst hru
      obtain ⟨ans, e⟩ := h u ui[u] (List.getElem?_eq_getElem hlt)
      refine ⟨ans, ?_⟩
      rw [← e]
      simp [rowMatrix, List.getElem?_eq_getElem hlt])
  refine ⟨rows.map fun row => row.map Prod.fst, ?_⟩
  unfold recommendAll
  simp only [bind, Except.bind]
  have : (if (0 : Nat) ≠ 0 then List.replicate 0 [] ++ ui else ui) = ui := by simp
  rw [this, e]
  rfl

/-- **C47 is violated** for every non-zero offset as soon as liked items are filtered (the default) or
users are recalculated: the interaction matrix has been padded with `offset` rows and no longer has
one row per user, so `recommend` always raises — whatever the model and the interactions. -/
theorem C47_offset_violated (H : HeapImpl (R × Nat) pairLt) (neginf : R) (m : Factors f R)
    (recalc : SpRows R → Except Err (List (Vec f R))) (ui : SpRows R) (N : Nat)
    (recalculate fl : Bool) (fi : Option PyFilter) (offset : Nat) (hoff : offset ≠ 0)
    (hneed : (fl || recalculate) = true) :
    recommendAll H neginf m recalc ui N recalculate fl fi offset = .error .valueError := by
  unfold recommendAll recommend checkUserItems
  rw [if_pos hoff]
  have hne : ¬ (List.replicate offset [] ++ ui).length =
      (Ids.many ((List.range ui.length).map fun r => r + offset)).count := by
    simp [Ids.count]; omega
  simp only [hneed, if_true, bind, Except.bind]
  rw [if_neg hne]

/-- Two users; the second one is asked for with offset 1.  `recommend` answers, `recommend_all`
raises; without filters `recommend_all` answers. -/
example (H : HeapImpl (Rat × Nat) pairLt) :
    (let m : Factors 1 Rat := ⟨[![0], ![1]], [![1], ![2], ![3]]⟩
     recommend H (-1000) m noRecalc (.one 1) (some [[(2, 1)]]) 2 true none false none =
        .ok (.one [(1, 2), (0, 1)]) ∧
      recommendAll H (-1000) m noRecalc [[(2, 1)]] 2 false true none 1 = .error .valueError) := by
  refine ⟨?_, C47_offset_violated _ _ _ _ _ _ _ _ _ _ (by omega) rfl⟩
  have hsel : ∀ k s, sel H k s = sel (insertionHeap (R := Rat)) k s := by
    intro k s; unfold sel; rw [C01_select_heap_independent H insertionHeap]
  refine recommend_one H _ (s := [1, 2, -1000]) (x := ![1]) (N' := 2)
      (fac := [![1], ![2], ![3]]) (its := none) rfl (userFactor_stored rfl)
      (by decide +kernel) (by omega) (by simp) (by decide +kernel) ?_
  rw [hsel]; decide +kernel

end Implicit
