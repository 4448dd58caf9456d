import Mathlib.Data.List.Basic
import Mathlib.Data.List.Nodup
import Verif.Model.Memory

namespace Implicit

variable {β : Type*}

/-- All stores inside the buffer: the sequence succeeds. -/
theorem writeAll_ok (ws : List (Nat × β)) : ∀ (mem : List β),
    (∀ w ∈ ws, w.1 < mem.length) →
    ∃ mem', writeAll mem ws = .ok mem' ∧ mem'.length = mem.length := by
  induction ws with
  | nil => intro mem _; exact ⟨mem, rfl, rfl⟩
  | cons w ws ih =>
    intro mem h
    have hw := h w (by simp)
    obtain ⟨mem', e, hl⟩ := ih (mem.set w.1 w.2) (fun w' hw' => by
      simpa using h w' (by simp [hw']))
    refine ⟨mem', ?_, by simpa using hl⟩
    unfold writeAll writeCell
    rw [if_pos hw]; exact e

theorem writeAll_length {ws : List (Nat × β)} : ∀ {mem mem' : List β},
    writeAll mem ws = .ok mem' → mem'.length = mem.length := by
  induction ws with
  | nil => intro mem mem' h; cases h; rfl
  | cons w ws ih =>
    intro mem mem' h
    unfold writeAll writeCell at h
    split_ifs at h with hw
    · have := ih (mem := mem.set w.1 w.2) h
      simpa using this
    · cases h

/-- An address nobody writes keeps its value. -/
theorem writeAll_frame {ws : List (Nat × β)} : ∀ {mem mem' : List β},
    writeAll mem ws = .ok mem' → ∀ a, a ∉ ws.map Prod.fst → mem'[a]? = mem[a]? := by
  induction ws with
  | nil => intro mem mem' h a _; cases h; rfl
  | cons w ws ih =>
    intro mem mem' h a ha
    unfold writeAll writeCell at h
    split_ifs at h with hw
    · have := ih (mem := mem.set w.1 w.2) h a (by simp at ha ⊢; exact ha.2)
      rw [this, List.getElem?_set_ne]
      simp at ha; exact fun h' => ha.1 h'.symm
    · cases h

/-- An address written exactly once holds what was written. -/
theorem writeAll_get {ws : List (Nat × β)} : ∀ {mem mem' : List β},
    writeAll mem ws = .ok mem' → (ws.map Prod.fst).Nodup →
    ∀ w ∈ ws, mem'[w.1]? = some w.2 := by
  induction ws with
  | nil => intro mem mem' _ _ w hw; simp at hw
  | cons w ws ih =>
    intro mem mem' h hnd w' hw'
    unfold writeAll writeCell at h
    split_ifs at h with hlt
    · simp only [List.map_cons, List.nodup_cons] at hnd
      rcases List.mem_cons.mp hw' with rfl | hw'
      · rw [writeAll_frame (mem := mem.set w'.1 w'.2) h _ hnd.1]
        simp [hlt]
      · exact ih (mem := mem.set w.1 w.2) h hnd.2 w' hw'
    · cases h

theorem writeAll_bounds {ws : List (Nat × β)} : ∀ {mem mem' : List β},
    writeAll mem ws = .ok mem' → ∀ w ∈ ws, w.1 < mem.length := by
  induction ws with
  | nil => intro mem mem' _ w hw; simp at hw
  | cons w ws ih =>
    intro mem mem' h w' hw'
    unfold writeAll writeCell at h
    split_ifs at h with hlt
    · rcases List.mem_cons.mp hw' with rfl | hw'
      · exact hlt
      · simpa using ih (mem := mem.set w.1 w.2) h w' hw'
    · cases h

/-- Stores to pairwise different addresses may be executed in any order. -/
theorem writeAll_perm {ws ws' : List (Nat × β)} {mem mem' : List β}
    (hnd : (ws.map Prod.fst).Nodup) (hp : ws'.Perm ws) (h : writeAll mem ws = .ok mem') :
    writeAll mem ws' = .ok mem' := by
  have hb := writeAll_bounds h
  obtain ⟨m2, e2, hl2⟩ := writeAll_ok ws' mem (fun w hw => hb w (hp.mem_iff.mp hw))
  have hnd' : (ws'.map Prod.fst).Nodup := (hp.map _).nodup_iff.mpr hnd
  have : m2 = mem' := by
    apply List.ext_getElem?
    intro a
    by_cases ha : a ∈ ws.map Prod.fst
    · obtain ⟨w, hw, rfl⟩ := List.mem_map.mp ha
      rw [writeAll_get h hnd w hw, writeAll_get e2 hnd' w (hp.mem_iff.mpr hw)]
    · rw [writeAll_frame h a ha, writeAll_frame e2 a]
      exact fun h' => ha ((hp.map _).mem_iff.mp h')
  rw [e2, this]

theorem writeAll_cons (mem : List β) (w : Nat × β) (ws : List (Nat × β)) :
    writeAll mem (w :: ws) = (writeCell mem w).bind fun m => writeAll m ws := rfl

theorem writeAll_append {ws ws' : List (Nat × β)} : ∀ {mem : List β},
    writeAll mem (ws ++ ws') = (writeAll mem ws).bind fun m => writeAll m ws' := by
  induction ws with
  | nil => intro mem; rfl
  | cons w ws ih =>
    intro mem
    rw [List.cons_append, writeAll_cons, writeAll_cons]
    cases h : writeCell mem w with
    | error e => rfl
    | ok m => exact ih

end Implicit
