import Verif.Lemmas.ALS
import Verif.Lemmas.Recommend

set_option linter.unusedSectionVars false

namespace Implicit

variable {R : Type} [LinearOrder R] [Field R] {f : Nat}

open Spec (ValidRow)

theorem lookup_eq_some_iff_of_nodup {row : List (Nat × R)} (h : (row.map Prod.fst).Nodup) (i : Nat)
    (c : R) : row.lookup i = some c ↔ (i, c) ∈ row := by
  induction row with
  | nil => simp
  | cons e row ih =>
    obtain ⟨k, d⟩ := e
    simp only [List.map_cons, List.nodup_cons, List.mem_map, not_exists, not_and] at h
    rw [List.lookup_cons]
    by_cases hk : i = k
    · subst hk
      simp only [beq_self_eq_true, List.mem_cons, Prod.mk.injEq, true_and, Option.some.injEq]
      constructor
      · intro e; exact Or.inl e.symm
      · rintro (e | hmem)
        · exact e.symm
        · exact absurd rfl (h.1 (i, c) hmem)
    · have : (i == k) = false := beq_eq_false_iff_ne.mpr hk
      rw [this]
      simp only [List.mem_cons, Prod.mk.injEq, hk, false_and, false_or]
      exact ih h.2

theorem mem_transpose {cols : Nat} {C : SpRows R} {i u : Nat} {c : R} {col : List (Nat × R)}
    (hcol : (transposeRows cols C)[i]? = some col) :
    (u, c) ∈ col ↔ ∃ row, C[u]? = some row ∧ (i, c) ∈ row := by
  unfold transposeRows at hcol
  rw [List.getElem?_map] at hcol
  obtain ⟨i', hi', rfl⟩ := Option.map_eq_some_iff.mp hcol
  have : i' = i := by
    have hlt := (List.getElem?_eq_some_iff.mp hi').1
    simp at hlt
    simp [hlt] at hi'
    exact hi'.symm
  subst this
  simp only [List.mem_flatMap, List.mem_map, List.mem_filter, beq_iff_eq, Prod.exists, Prod.mk.injEq]
  constructor
  · rintro ⟨row, u', hmem, j, c', ⟨hc, rfl⟩, rfl, rfl⟩
    exact ⟨row, (mem_zipIdx_iff' (p := (row, u'))).mp hmem, hc⟩
  · rintro ⟨row, hr, hc⟩
    exact ⟨row, u, (mem_zipIdx_iff' (p := (row, u))).mpr hr, i', c, ⟨hc, rfl⟩, rfl, rfl⟩

theorem transpose_length (cols : Nat) (C : SpRows R) : (transposeRows cols C).length = cols := by
  simp [transposeRows]

theorem transpose_valid {cols : Nat} {C : SpRows R} (hv : ∀ row ∈ C, ValidRow cols row) :
    ∀ col ∈ transposeRows cols C, ValidRow C.length col := by
  intro col hmem
  obtain ⟨i, hi⟩ := List.mem_iff_getElem?.mp hmem
  constructor
  · unfold transposeRows at hmem
    obtain ⟨j, hj, rfl⟩ := List.mem_map.mp hmem
    rw [List.map_flatMap, List.nodup_flatMap]
    constructor
    · rintro ⟨row, u⟩ hru
      have hr : row ∈ C := List.mem_of_getElem? ((mem_zipIdx_iff' (p := (row, u))).mp hru)
      have hnd := (hv row hr).nodup
      simp only [List.map_map, Function.comp_def]
      -- at most one entry of a row lies in column `j`
      have hle : ∀ l : List (Nat × R), (l.map Prod.fst).Nodup →
          ((l.filter fun e => e.1 == j).map fun _ => u).Nodup := by
        intro l
        induction l with
        | nil => simp
        | cons e l ih =>
          intro h
          simp only [List.map_cons, List.nodup_cons, List.mem_map, not_exists, not_and] at h
          rw [List.filter_cons]
          split_ifs with he
          · have : l.filter (fun e => e.1 == j) = [] := by
              rw [List.filter_eq_nil_iff]
              intro a ha hb
              have h1 : e.1 = j := by simpa using he
              have h2 : a.1 = j := by simpa using hb
              exact h.1 a ha (h2.trans h1.symm)
            rw [this]; simp
          · exact ih h.2
      exact hle row hnd
    · have hpw : C.zipIdx.Pairwise (fun a b => a.2 ≠ b.2) := by
        have h1 : (C.zipIdx.map Prod.snd).Nodup := by rw [zipIdx_snd]; exact List.nodup_range
        exact List.pairwise_map.mp h1
      refine hpw.imp ?_
      intro a b hab
      simp only [Function.onFun, List.disjoint_left, List.mem_map, List.mem_filter]
      rintro x ⟨p, ⟨e, _, rfl⟩, rfl⟩ ⟨q, ⟨e', _, rfl⟩, h⟩
      exact hab h.symm
  · rintro ⟨u, c⟩ he
    obtain ⟨row, hr, _⟩ := (mem_transpose hi).mp he
    exact (List.getElem?_eq_some_iff.mp hr).1

/-- Stored values of the transpose. -/
theorem transpose_lookup {cols : Nat} {C : SpRows R} (hv : ∀ row ∈ C, ValidRow cols row)
    {i : Nat} {col : List (Nat × R)} (hcol : (transposeRows cols C)[i]? = some col) (u : Nat) :
    col.lookup u = (C[u]?.getD []).lookup i := by
  have hc := (transpose_valid hv col (List.mem_of_getElem? hcol)).nodup
  have hr : ((C[u]?.getD []).map Prod.fst).Nodup := by
    cases h : C[u]? with
    | none => simp
    | some row => exact (hv row (List.mem_of_getElem? h)).nodup
  apply Option.ext
  intro c
  rw [lookup_eq_some_iff_of_nodup hc, lookup_eq_some_iff_of_nodup hr, mem_transpose hcol]
  cases h : C[u]? with
  | none => simp
  | some row => simp

end Implicit
