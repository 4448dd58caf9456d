import Verif.Spec.GpuPartialFit
import Verif.Lemmas.GpuState
import Verif.Lemmas.PartialFit

set_option linter.unusedSectionVars false

namespace Implicit

variable {R : Type} [LinearOrder R] [Field R] {f : Nat}

theorem gpuAssignCell_ok {ids : List Int} {xs l l' : List (Vec f R)} {e : Nat × Fin f}
    (h : gpuAssignCell ids xs l e = .ok l') : ∃ i x y, ids[e.1]? = some i ∧ xs[e.1]? = some x ∧ 0 ≤ i ∧
      l[i.toNat]? = some y ∧ l' = l.set i.toNat (Function.update y e.2 (x e.2)) := by
  unfold gpuAssignCell at h
  split at h
  · rename_i i x hi hx
    split at h
    · cases h
    · rename_i hneg
      split at h
      · cases h
      · rename_i y hy
        cases h
        exact ⟨i, x, y, hi, hx, by omega, hy, rfl⟩
  · cases h

/-- Whatever elements are assigned in whatever order: rows that are not named keep their contents. -/
theorem assign_untouched (ids : List Int) (xs : List (Vec f R)) : ∀ (order : List (Nat × Fin f))
    (l l' : List (Vec f R)), order.foldlM (gpuAssignCell ids xs) l = .ok l' →
    l'.length = l.length ∧ ∀ u : Nat, (u : Int) ∉ ids → l'[u]? = l[u]?
  | [], l, l', h => by cases h; exact ⟨rfl, fun _ _ => rfl⟩
  | e :: es, l, l', h => by
    rw [List.foldlM_cons] at h
    cases hc : gpuAssignCell ids xs l e with
    | error e => rw [hc] at h; cases h
    | ok l1 =>
      rw [hc] at h
      obtain ⟨i, x, y, hi, -, h0, -, rfl⟩ := gpuAssignCell_ok hc
      obtain ⟨h1, h2⟩ := assign_untouched ids xs es _ l' h
      refine ⟨by simpa using h1, fun u hu => ?_⟩
      rw [h2 u hu]
      apply List.getElem?_set_ne
      rintro rfl
      apply hu
      rw [Int.toNat_of_nonneg h0]
      exact List.mem_of_getElem? hi

theorem assign_total (ids : List Int) (xs : List (Vec f R)) : ∀ (order : List (Nat × Fin f)) (l : List (Vec f R)),
    (∀ e ∈ order, ∃ i x, ids[e.1]? = some i ∧ xs[e.1]? = some x ∧ 0 ≤ i ∧ i.toNat < l.length) →
    ∃ l', order.foldlM (gpuAssignCell ids xs) l = .ok l'
  | [], l, _ => ⟨l, rfl⟩
  | e :: es, l, h => by
    obtain ⟨i, x, hi, hx, h0, hlt⟩ := h e (by simp)
    have hstep : gpuAssignCell ids xs l e =
        .ok (l.set i.toNat (Function.update l[i.toNat] e.2 (x e.2))) := by
      unfold gpuAssignCell
      simp only [hi, hx, List.getElem?_eq_getElem hlt]
      rw [if_neg (by omega)]
    obtain ⟨l', hl'⟩ := assign_total ids xs es (l.set i.toNat (Function.update l[i.toNat] e.2 (x e.2)))
      fun e he => by
        obtain ⟨i, x, a, b, c, d⟩ := h e (List.mem_cons_of_mem _ he)
        exact ⟨i, x, a, b, c, by simpa using d⟩
    exact ⟨l', by rw [List.foldlM_cons, hstep]; exact hl'⟩

/-- Every element afterwards: from one of the assignments to it, or as before if there is none. -/
theorem assign_value (ids : List Int) (xs : List (Vec f R)) : ∀ (order : List (Nat × Fin f))
    (l l' : List (Vec f R)), order.foldlM (gpuAssignCell ids xs) l = .ok l' →
    ∀ (u : Nat) y', l'[u]? = some y' → ∀ j,
      (∃ k x, (k, j) ∈ order ∧ ids[k]? = some (u : Int) ∧ xs[k]? = some x ∧ y' j = x j) ∨
      ((∀ k, (k, j) ∈ order → ids[k]? ≠ some (u : Int)) ∧ ∃ y, l[u]? = some y ∧ y' j = y j)
  | [], l, l', h => by
    cases h
    intro u y' hy j
    exact .inr ⟨by simp, y', hy, rfl⟩
  | e :: es, l, l', h => by
    rw [List.foldlM_cons] at h
    cases hc : gpuAssignCell ids xs l e with
    | error e => rw [hc] at h; cases h
    | ok l1 =>
      rw [hc] at h
      obtain ⟨i, x, y0, hi, hx, h0, hy0, rfl⟩ := gpuAssignCell_ok hc
      intro u y' hy j
      rcases assign_value ids xs es _ l' h u y' hy j with ⟨k, x', hk, hik, hxk, hval⟩ | ⟨hno, y, hyl, hval⟩
      · exact .inl ⟨k, x', by simp [hk], hik, hxk, hval⟩
      · by_cases hu : i.toNat = u
        · subst hu
          have hlt := (List.getElem?_eq_some_iff.mp hy0).1
          rw [List.getElem?_set_self hlt] at hyl
          cases hyl
          by_cases hj : e.2 = j
          · subst hj
            refine .inl ⟨e.1, x, by simp, by rw [Int.toNat_of_nonneg h0]; exact hi, hx, ?_⟩
            rw [hval, Function.update_self]
          · refine .inr ⟨?_, y0, hy0, by rw [hval, Function.update_of_ne (Ne.symm hj)]⟩
            intro k hk
            rcases List.mem_cons.mp hk with rfl | hk
            · exact absurd rfl hj
            · exact hno k hk
        · rw [List.getElem?_set_ne hu] at hyl
          refine .inr ⟨?_, y, hyl, hval⟩
          intro k hk
          rcases List.mem_cons.mp hk with rfl | hk
          · intro e'
            rw [hi] at e'
            cases e'
            simp at hu
          · exact hno k hk

theorem mem_assignCells {n k : Nat} {j : Fin f} : (k, j) ∈ assignCells f n ↔ k < n := by
  unfold assignCells
  simp

theorem pyMaxInt_spec {ids : List Int} {m : Int} (h : pyMaxInt ids = .ok m) : m ∈ ids ∧ ∀ i ∈ ids, i ≤ m := by
  cases ids with
  | nil => cases h
  | cons i is =>
    have : ∀ (is : List Int) (i : Int), is.foldl max i ∈ i :: is ∧ ∀ j ∈ i :: is, j ≤ is.foldl max i := by
      intro is
      induction is with
      | nil => intro i; simp
      | cons k is ih =>
        intro i
        obtain ⟨h1, h2⟩ := ih (max i k)
        rw [List.foldl_cons]
        refine ⟨?_, ?_⟩
        · rcases List.mem_cons.mp h1 with h | h
          · rw [h]
            rcases max_choice i k with e | e <;> rw [e] <;> simp
          · simp [h]
        · have hm := h2 (max i k) (by simp)
          intro j hj
          rcases List.mem_cons.mp hj with rfl | hj
          · exact (le_max_left _ _).trans hm
          · rcases List.mem_cons.mp hj with rfl | hj
            · exact (le_max_right _ _).trans hm
            · exact h2 j (by simp [hj])
    cases h
    exact this is i

theorem gpuGrow_old {m : Int} {l : List (Vec f R)} {u : Nat} (h : u < l.length) : (gpuGrow m l)[u]? = l[u]? := by
  unfold gpuGrow
  split
  · exact growTo_old h
  · rfl

theorem gpuGrow_length {m : Int} (hm : 0 ≤ m) (l : List (Vec f R)) :
    (gpuGrow m l).length = max l.length (m.toNat + 1) := by
  unfold gpuGrow
  split
  · rw [growTo_length]
  · omega

theorem gpuGrow_new {m : Int} {l : List (Vec f R)} {u : Nat} (h : l.length ≤ u) (h' : u < (gpuGrow m l).length) :
    (gpuGrow m l)[u]? = some fun _ => 0 := by
  unfold gpuGrow at h' ⊢
  split
  · rename_i hc
    rw [if_pos hc] at h'
    exact growTo_new h h'
  · rename_i hc
    rw [if_neg hc] at h'
    omega

/-- Growing and then assigning all elements in any order. -/
theorem rowsMixed_assign {ids : List Int} {xs : List (Vec f R)} {m : Int} (hm : pyMaxInt ids = .ok m)
    (hpos : ∀ i ∈ ids, 0 ≤ i) (hlen : xs.length = ids.length) {order : List (Nat × Fin f)}
    (horder : order.Perm (assignCells f ids.length)) (old : List (Vec f R)) :
    ∃ new, order.foldlM (gpuAssignCell ids xs) (gpuGrow m old) = .ok new ∧
      Spec.RowsMixed 0 (ids.map Int.toNat) xs old new := by
  obtain ⟨hmem, hle⟩ := pyMaxInt_spec hm
  have hm0 := hpos m hmem
  have hgl := gpuGrow_length hm0 old
  have hids : ∀ u : Nat, u ∈ ids.map Int.toNat ↔ (u : Int) ∈ ids := by
    intro u
    rw [List.mem_map]
    constructor
    · rintro ⟨i, hi, rfl⟩
      rw [Int.toNat_of_nonneg (hpos i hi)]; exact hi
    · intro h; exact ⟨u, h, by simp⟩
  have hget : ∀ (k u : Nat), (ids.map Int.toNat)[k]? = some u ↔ ids[k]? = some (u : Int) := by
    intro k u
    rw [List.getElem?_map]
    constructor
    · intro h
      obtain ⟨i, hi, rfl⟩ := Option.map_eq_some_iff.mp h
      rw [hi, Int.toNat_of_nonneg (hpos i (List.mem_of_getElem? hi))]
    · intro h; rw [h]; simp
  obtain ⟨new, hnew⟩ := assign_total ids xs order (gpuGrow m old) (by
    rintro ⟨k, j⟩ he
    have hk := mem_assignCells.mp (horder.mem_iff.mp he)
    refine ⟨ids[k], xs[k], List.getElem?_eq_getElem hk, List.getElem?_eq_getElem (by omega),
      hpos _ (List.getElem_mem hk), ?_⟩
    have := hle _ (List.getElem_mem hk)
    rw [hgl]
    omega)
  obtain ⟨hlen', hkept⟩ := assign_untouched ids xs order _ new hnew
  rw [hgl] at hlen'
  refine ⟨new, hnew, by omega, ?_, ?_, ?_, ?_, ?_⟩
  · intro u hu
    have := hle _ ((hids u).mp hu)
    omega
  · by_cases h : m.toNat + 1 ≤ old.length
    · left; omega
    · right; exact ⟨m.toNat, (hids _).mpr (by rw [Int.toNat_of_nonneg hm0]; exact hmem), by omega⟩
  · intro u y hu hy j
    rcases assign_value ids xs order _ new hnew u y hy j with ⟨k, x, -, hik, hxk, hval⟩ | ⟨hno, -⟩
    · exact ⟨k, x, (hget k u).mpr hik, hxk, hval⟩
    · obtain ⟨k, hk⟩ := List.mem_iff_getElem?.mp ((hids u).mp hu)
      have hkl := (List.getElem?_eq_some_iff.mp hk).1
      exact absurd hk (hno k (horder.mem_iff.mpr (mem_assignCells.mpr hkl)))
  · intro u hu hn
    rw [hkept u fun h => hn ((hids u).mpr h), gpuGrow_old hu]
  · intro u hu hu' hn
    rw [hkept u fun h => hn ((hids u).mpr h)]
    exact gpuGrow_new hu (by rw [hgl]; omega)

/-- With distinct ids there is nothing to mix. -/
theorem rowsUpdated_of_mixed {ids : List Nat} {xs old new : List (Vec f R)} (hnd : ids.Nodup)
    (h : Spec.RowsMixed 0 ids xs old new) : Spec.RowsUpdated (fun _ => 0) ids xs old new := by
  refine ⟨h.keepsLength, h.hasIds, h.tight, ?_, h.kept, h.zeros⟩
  intro k u x hk hx _
  have hu := List.mem_of_getElem? hk
  have hlt := h.hasIds u hu
  rw [List.getElem?_eq_getElem hlt]
  congr 1
  funext j
  obtain ⟨k', x', hk', hx', hval⟩ := h.named u _ hu (List.getElem?_eq_getElem hlt) j
  have hkl := (List.getElem?_eq_some_iff.mp hk).1
  have : k = k' := (List.getElem?_inj hkl hnd).mp (hk.trans hk'.symm)
  subst this
  rw [hx] at hx'
  cases hx'
  exact hval

end Implicit
