import Verif.Spec.PartialFit
import Verif.Lemmas.State

set_option linter.unusedSectionVars false

namespace Implicit

variable {R : Type} [LinearOrder R] [Field R] {f : Nat}

theorem growTo_length (m : Nat) (l : List (Vec f R)) : (growTo m l).length = max l.length (m + 1) := by
  unfold growTo
  split
  · simp; omega
  · omega

theorem growTo_old {m : Nat} {l : List (Vec f R)} {u : Nat} (h : u < l.length) :
    (growTo m l)[u]? = l[u]? := by
  unfold growTo
  split
  · rw [List.getElem?_append_left h]
  · rfl

theorem growTo_new {m : Nat} {l : List (Vec f R)} {u : Nat} (h : l.length ≤ u)
    (h' : u < (growTo m l).length) : (growTo m l)[u]? = some fun _ => 0 := by
  rw [growTo_length] at h'
  unfold growTo
  rw [if_pos (by omega), List.getElem?_append_right h, List.getElem?_replicate, if_pos (by omega)]

theorem assignRows_length (ps : List (Nat × Vec f R)) : ∀ l : List (Vec f R),
    (assignRows l ps).length = l.length := by
  induction ps with
  | nil => intro l; rfl
  | cons p ps ih => intro l; rw [assignRows, ih]; simp

theorem assignRows_other (ps : List (Nat × Vec f R)) (u : Nat) : ∀ l : List (Vec f R),
    (∀ p ∈ ps, p.1 ≠ u) → (assignRows l ps)[u]? = l[u]? := by
  induction ps with
  | nil => intro l _; rfl
  | cons p ps ih =>
    intro l h
    rw [assignRows, ih _ fun q hq => h q (List.mem_cons_of_mem _ hq)]
    exact List.getElem?_set_ne (h p (by simp))

theorem assignRows_named (ids : List Nat) (u : Nat) : ∀ (xs l : List (Vec f R)) (k : Nat) (x : Vec f R),
    u < l.length → ids[k]? = some u → xs[k]? = some x → (∀ k' > k, ids[k']? ≠ some u) →
    (assignRows l (ids.zip xs))[u]? = some x := by
  induction ids with
  | nil => intro xs l k x _ h; simp at h
  | cons i ids ih =>
    intro xs l k x hu hk hx hlast
    cases xs with
    | nil => simp at hx
    | cons y xs =>
      rw [List.zip_cons_cons, assignRows]
      cases k with
      | succ k =>
        exact ih xs _ k x (by simpa using hu) (by simpa using hk) (by simpa using hx)
          fun k' hk' => by simpa using hlast (k' + 1) (by omega)
      | zero =>
        simp at hk hx
        subst hk hx
        rw [assignRows_other]
        · simp [hu]
        · intro p hp e
          have hm : p.1 ∈ ids := (List.of_mem_zip (a := p.1) (b := p.2) hp).1
          obtain ⟨k', hk'⟩ := List.mem_iff_getElem?.mp hm
          rw [e] at hk'
          exact hlast (k' + 1) (by omega) (by simpa using hk')

theorem pyMax_spec {ids : List Nat} {m : Nat} (h : pyMax ids = .ok m) :
    m ∈ ids ∧ ∀ i ∈ ids, i ≤ m := by
  cases ids with
  | nil => cases h
  | cons i is =>
    have : ∀ (is : List Nat) (i : Nat), is.foldl max i ∈ i :: is ∧ ∀ j ∈ i :: is, j ≤ is.foldl max i := by
      intro is
      induction is with
      | nil => intro i; simp
      | cons k is ih =>
        intro i
        obtain ⟨h1, h2⟩ := ih (max i k)
        rw [List.foldl_cons]
        refine ⟨?_, ?_⟩
        · rcases List.mem_cons.mp h1 with h | h
          · rw [h]
            rcases max_choice i k with e | e <;> rw [e] <;> simp
          · simp [h]
        · have hm := h2 (max i k) (by simp)
          intro j hj
          rcases List.mem_cons.mp hj with rfl | hj
          · exact (le_max_left _ _).trans hm
          · rcases List.mem_cons.mp hj with rfl | hj
            · exact (le_max_right _ _).trans hm
            · exact h2 j (by simp [hj])
    cases h
    exact this is i

theorem pyMax_ok {ids : List Nat} (h : ids ≠ []) : ∃ m, pyMax ids = .ok m := by
  cases ids with
  | nil => exact absurd rfl h
  | cons i is => exact ⟨_, rfl⟩

theorem rowsUpdated_assign {ids : List Nat} {xs : List (Vec f R)} {m : Nat} (hm : pyMax ids = .ok m)
    (old : List (Vec f R)) :
    Spec.RowsUpdated (fun _ => 0) ids xs old (assignRows (growTo m old) (ids.zip xs)) := by
  obtain ⟨hmem, hle⟩ := pyMax_spec hm
  have hlen : (assignRows (growTo m old) (ids.zip xs)).length = max old.length (m + 1) := by
    rw [assignRows_length, growTo_length]
  have hother : ∀ u, u ∉ ids → (assignRows (growTo m old) (ids.zip xs))[u]? = (growTo m old)[u]? := by
    intro u hu
    apply assignRows_other
    intro p hp e
    exact hu (e ▸ (List.of_mem_zip (a := p.1) (b := p.2) hp).1)
  refine ⟨by rw [hlen]; omega, ?_, ?_, ?_, ?_, ?_⟩
  · intro i hi
    have := hle i hi
    rw [hlen]; omega
  · rw [hlen]
    by_cases h : m + 1 ≤ old.length
    · left; omega
    · right; exact ⟨m, hmem, by omega⟩
  · intro k u x hk hx hlast
    apply assignRows_named ids u xs _ k x _ hk hx hlast
    have := hle u (List.mem_of_getElem? hk)
    rw [growTo_length]; omega
  · intro u hu hn
    rw [hother u hn, growTo_old hu]
  · intro u hu hu' hn
    rw [hother u hn, growTo_new hu (by rwa [assignRows_length] at hu')]

/-- The specification determines the table. -/
theorem rowsUpdated_unique {α : Type} {zero : α} {ids : List Nat} {xs old new new' : List α}
    (hl : xs.length = ids.length) (h : Spec.RowsUpdated zero ids xs old new)
    (h' : Spec.RowsUpdated zero ids xs old new') : new = new' := by
  have hlen : new.length = new'.length := by
    have a := h.keepsLength
    have a' := h'.keepsLength
    rcases h.tight with e | ⟨i, hi, e⟩ <;> rcases h'.tight with e' | ⟨i', hi', e'⟩
    · omega
    · have := h.hasIds i' hi'; omega
    · have := h'.hasIds i hi; omega
    · have := h.hasIds i' hi'
      have := h'.hasIds i hi
      omega
  apply List.ext_getElem?
  intro u
  by_cases hu : u ∈ ids
  · -- the last occurrence of `u`
    have : ∃ k : Nat, ids[k]? = some u ∧ ∀ k' : Nat, k' > k → ids[k']? ≠ some u := by
      clear hl h h' hlen
      induction ids with
      | nil => simp at hu
      | cons i ids ih =>
        by_cases hm : u ∈ ids
        · obtain ⟨k, hk, hk'⟩ := ih hm
          refine ⟨k + 1, by simpa using hk, ?_⟩
          intro k' hgt
          obtain ⟨j, rfl⟩ : ∃ j, k' = j + 1 := ⟨k' - 1, by omega⟩
          simpa using hk' j (by omega)
        · have : i = u := by
            rcases List.mem_cons.mp hu with h | h
            · exact h.symm
            · exact absurd h hm
          refine ⟨0, by simp [this], ?_⟩
          intro k' hgt e
          obtain ⟨j, rfl⟩ : ∃ j, k' = j + 1 := ⟨k' - 1, by omega⟩
          exact hm (List.mem_of_getElem? (by simpa using e))
    obtain ⟨k, hk, hlast⟩ := this
    have hkl : k < xs.length := by rw [hl]; exact (List.getElem?_eq_some_iff.mp hk).1
    rw [h.named k u _ hk (List.getElem?_eq_getElem hkl) hlast,
      h'.named k u _ hk (List.getElem?_eq_getElem hkl) hlast]
  · by_cases ho : u < old.length
    · rw [h.kept u ho hu, h'.kept u ho hu]
    · by_cases hn : u < new.length
      · rw [h.zeros u (by omega) hn hu, h'.zeros u (by omega) (by omega) hu]
      · rw [List.getElem?_eq_none (by omega), List.getElem?_eq_none (by omega)]

/-- Updating again with the same values changes nothing. -/
theorem rowsUpdated_idem {α : Type} {zero : α} {ids : List Nat} {xs old new : List α}
    (h : Spec.RowsUpdated zero ids xs old new) : Spec.RowsUpdated zero ids xs new new :=
  ⟨le_refl _, h.hasIds, .inl rfl, h.named, fun _ _ _ => rfl,
    fun u h1 h2 _ => absurd h2 (by omega)⟩

/-- Exchange the roles of users and items. -/
def MFState.swap (st : MFState f R) : MFState f R :=
  ⟨st.item, st.user, st.itemNorms, st.userNorms, st.XtX, st.YtY⟩

theorem Coherent.swap {env : Env f R} {st : MFState f R} (h : Coherent env st) :
    Coherent env st.swap := ⟨h.itemNorms, h.userNorms, h.XtX, h.YtY⟩

theorem recalculateItem_swap (env : Env f R) (st : MFState f R) (ids : Ids) (rows : SpRows R)
    (hl : rows.length = ids.count) : recalculateItem env st ids rows =
      ((recalculateUser env st.swap ids rows).1, (recalculateUser env st.swap ids rows).2.swap) := by
  unfold recalculateItem recalculateUser
  rw [if_neg (by simpa using hl)]
  obtain ⟨us, is, un, im, Y, X⟩ := st
  cases X <;> rfl

theorem partialFitItems_swap (env : Env f R) (st : MFState f R) (ids : List Nat) (rows : SpRows R) :
    partialFitItems env st ids rows =
      ((partialFitUsers env st.swap ids rows).1, (partialFitUsers env st.swap ids rows).2.swap) := by
  unfold partialFitItems partialFitUsers
  by_cases hl : ids.length = rows.length
  · rw [if_neg (by simpa using hl), if_neg (by simpa using hl),
      recalculateItem_swap env st (.many ids) rows hl.symm]
    rcases recalculateUser env st.swap (.many ids) rows with ⟨r, st'⟩
    cases r with
    | error e => rfl
    | ok xs =>
      simp only
      cases pyMax ids with
      | error e => rfl
      | ok m => rfl
  · rw [if_pos (by simpa using hl), if_pos (by simpa using hl)]; rfl

end Implicit
