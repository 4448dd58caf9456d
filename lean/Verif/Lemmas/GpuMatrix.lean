import Verif.Spec.GpuMatrix
import Verif.Lemmas.GpuKnn
import Verif.Lemmas.Memory
import Mathlib.Data.List.GetD
import Mathlib.Tactic.Linarith

/-!
# Lemmas on device matrices
-/

namespace Implicit

open Spec

variable {R : Type}

theorem mapM_eq_ok {α β : Type} {g : α → Except Err β} {k : α → β} {l : List α}
    (h : ∀ a ∈ l, g a = .ok (k a)) : l.mapM g = .ok (l.map k) := by
  induction l with
  | nil => rfl
  | cons a l ih =>
    rw [List.mapM_cons, h a List.mem_cons_self, ih fun b hb => h b (List.mem_cons_of_mem _ hb)]
    rfl

/-- Element `i` of a value, in row order. -/
def flatAt [Zero R] (rows : List (List R)) (cols i : Nat) : R := (rows.getD (i / cols) []).getD (i % cols) 0

theorem flat_cases {rows cols i : Nat} (h : i < rows * cols) :
    i / cols < rows ∧ i % cols < cols ∧ i / cols * cols + i % cols = i := by
  have hc : 0 < cols := by
    rcases Nat.eq_zero_or_pos cols with h0 | h0
    · rw [h0] at h; simp at h
    · exact h0
  exact ⟨Nat.div_lt_of_lt_mul (by rwa [Nat.mul_comm]), Nat.mod_lt _ hc, Nat.div_add_mod' i cols⟩

theorem flatAt_eq [Zero R] {rows : List (List R)} {cols i : Nat} (ha : i / cols < rows.length)
    (hb : i % cols < (rows[i / cols]).length) : flatAt rows cols i = rows[i / cols][i % cols] := by
  unfold flatAt
  simp only [List.getD_eq_getElem _ _ ha, List.getD_eq_getElem _ _ hb]

theorem Spec.Shows.read [Zero R] {d : Device R} {m : DevMatrix} {v : Val R} (h : Shows d m v) {i : Nat}
    (hi : i < m.rows * m.cols) :
    (d.heap.getD m.buf [])[m.off + i]? = some (flatAt v.rows v.cols i) := by
  obtain ⟨h1, h2, h3⟩ := flat_cases hi
  rw [h.rows] at h1
  have hrow : v.rows[i / m.cols]? = some (v.rows[i / m.cols]) := List.getElem?_eq_getElem h1
  have hw := h.width _ (List.getElem_mem h1)
  have hcol : i % m.cols < v.cols := by rw [← h.cols]; exact h2
  have := h.cells _ _ hrow _ hcol
  rw [Nat.add_assoc, h3] at this
  rw [← this, flatAt, ← h.cols, List.getD_eq_getElem _ _ h1, List.getD_eq_getElem _ _ (by rw [hw]; exact hcol),
    List.getElem?_eq_getElem]

theorem Spec.Shows.readOk [Zero R] {d : Device R} {m : DevMatrix} {v : Val R} (h : Shows d m v) {i : Nat}
    (hi : i < m.rows * m.cols) : d.read m i = .ok (flatAt v.rows v.cols i) := by
  unfold Device.read
  rw [h.read hi]

theorem Spec.Shows.readAll [Zero R] {d : Device R} {m : DevMatrix} {v : Val R} (h : Shows d m v) :
    ((List.range (m.rows * m.cols)).mapM fun i => d.read m i) =
      .ok ((List.range (m.rows * m.cols)).map (flatAt v.rows v.cols)) :=
  mapM_eq_ok fun i hi => h.readOk (by simpa using hi)

/-- A fresh buffer with the right cells holds the value. -/
theorem shows_fresh [Zero R] {heap : List (List R)} {mats : List DevMatrix} {cells : List R}
    {rows : List (List R)} {n cols itemsize : Nat} (hn : n = rows.length)
    (hw : ∀ row ∈ rows, row.length = cols)
    (hc : ∀ i < rows.length * cols, cells[i]? = some (flatAt rows cols i)) :
    Shows ⟨heap ++ [cells], mats⟩ ⟨n, cols, heap.length, 0, itemsize⟩ ⟨heap.length, cols, itemsize, rows⟩ := by
  refine ⟨rfl, rfl, rfl, hn, hw, ?_⟩
  intro r row hr c hcc
  simp only [List.getD_eq_getElem?_getD, List.getElem?_append_right (Nat.le_refl _), Nat.sub_self,
    List.getElem?_cons_zero, Option.getD_some, Nat.zero_add]
  obtain ⟨hlt, rfl⟩ := List.getElem?_eq_some_iff.mp hr
  rw [hc _ (flat_lt hlt hcc), flatAt, flat_div hcc, flat_mod hcc, List.getD_eq_getElem _ _ hlt,
    List.getD_eq_getElem _ _ (by rw [hw _ (List.getElem_mem hlt)]; exact hcc), List.getElem?_eq_getElem]

theorem shows_grow {heap : List (List R)} {x : List R} {mats mats' : List DevMatrix} {m : DevMatrix} {v : Val R}
    (hb : m.buf < heap.length) (h : Shows ⟨heap, mats⟩ m v) : Shows ⟨heap ++ [x], mats'⟩ m v := by
  refine ⟨h.group, h.cols, h.itemsize, h.rows, h.width, ?_⟩
  intro r row hr c hc
  rw [h.cells r row hr c hc]
  simp only [List.getD_eq_getElem?_getD, List.getElem?_append_left hb]

theorem shows_mats {heap : List (List R)} {mats mats' : List DevMatrix} {m : DevMatrix} {v : Val R}
    (h : Shows ⟨heap, mats⟩ m v) : Shows ⟨heap, mats'⟩ m v :=
  ⟨h.group, h.cols, h.itemsize, h.rows, h.width, h.cells⟩

/-- The invariant of a session. -/
structure DevInv (d : Device R) (s : Vals R) : Prop where
  holds : Holds d s
  next : s.next = d.heap.length
  group : ∀ v ∈ s.vals, v.group < s.next
  small : ∀ v ∈ s.vals, v.rows.length < 2 ^ 63

theorem DevInv.get {d : Device R} {s : Vals R} (h : DevInv d s) {k : Nat} {v : Val R} (hv : s.vals[k]? = some v) :
    ∃ m, d.mats[k]? = some m ∧ Shows d m v := by
  have hk : k < d.mats.length := by rw [h.holds.1]; exact (List.getElem?_eq_some_iff.mp hv).1
  exact ⟨_, List.getElem?_eq_getElem hk, h.holds.2 k _ v (List.getElem?_eq_getElem hk) hv⟩

theorem DevInv.none {d : Device R} {s : Vals R} (h : DevInv d s) {k : Nat} (hv : s.vals[k]? = none) :
    d.mats[k]? = none := by
  rw [List.getElem?_eq_none_iff] at hv ⊢
  rw [h.holds.1]; exact hv

theorem getElem?_append_one {α : Type} {l : List α} {x y : α} {k : Nat} (h : (l ++ [x])[k]? = some y) :
    l[k]? = some y ∨ (k = l.length ∧ y = x) := by
  rw [List.getElem?_append] at h
  split at h
  · exact .inl h
  · rename_i hk
    obtain ⟨hlt, e⟩ := List.getElem?_eq_some_iff.mp h
    simp only [List.length_singleton] at hlt
    have h0 : k - l.length = 0 := by omega
    simp only [h0, List.getElem_cons_zero] at e
    exact .inr ⟨by omega, e.symm⟩

theorem mem_append_one {α : Type} {l : List α} {x y : α} (h : y ∈ l ++ [x]) : y ∈ l ∨ y = x := by
  simpa using h

/-- A new matrix on a new buffer. -/
theorem DevInv.push [Zero R] {d : Device R} {s : Vals R} (h : DevInv d s) {cells : List R} {rows : List (List R)}
    {n cols itemsize : Nat} (hn : n = rows.length) (hs : rows.length < 2 ^ 63)
    (hw : ∀ row ∈ rows, row.length = cols)
    (hc : ∀ i < rows.length * cols, cells[i]? = some (flatAt rows cols i)) :
    DevInv (d.push n cols itemsize cells) (s.fresh cols itemsize rows) := by
  refine ⟨⟨by simp [Device.push, Vals.fresh, h.holds.1], ?_⟩, by simp [Device.push, Vals.fresh, h.next], ?_, ?_⟩
  · intro k m v hm hv
    rcases getElem?_append_one hm with hm | ⟨hk, rfl⟩ <;> rcases getElem?_append_one hv with hv | ⟨hk', rfl⟩
    · have hsh := h.holds.2 k m v hm hv
      have hg := h.group v (List.mem_of_getElem? hv)
      exact shows_grow (by rw [hsh.group, ← h.next]; exact hg) (mats := d.mats) hsh
    · rw [hk', ← h.holds.1, List.getElem?_eq_none (Nat.le_refl _)] at hm; cases hm
    · rw [hk, h.holds.1, List.getElem?_eq_none (Nat.le_refl _)] at hv; cases hv
    · rw [h.next]; exact shows_fresh hn hw hc
  · intro v hv
    rcases mem_append_one hv with hv | rfl
    · exact Nat.lt_succ_of_lt (h.group v hv)
    · exact Nat.lt_succ_self _
  · intro v hv
    rcases mem_append_one hv with hv | rfl
    · exact h.small v hv
    · exact hs

/-- A new window on an old buffer. -/
theorem DevInv.view {d : Device R} {s : Vals R} (h : DevInv d s) {m : DevMatrix} {v : Val R}
    (hsh : Shows d m v) (hg : v.group < s.next) (hs : v.rows.length < 2 ^ 63) :
    DevInv (d.view m) ⟨s.next, s.vals ++ [v]⟩ := by
  refine ⟨⟨by simp [Device.view, h.holds.1], ?_⟩, h.next, ?_, ?_⟩
  · intro k m' v' hm hv
    rcases getElem?_append_one hm with hm | ⟨hk, rfl⟩ <;> rcases getElem?_append_one hv with hv | ⟨hk', rfl⟩
    · exact shows_mats (mats := d.mats) (h.holds.2 k m' v' hm hv)
    · rw [hk', ← h.holds.1, List.getElem?_eq_none (Nat.le_refl _)] at hm; cases hm
    · rw [hk, h.holds.1, List.getElem?_eq_none (Nat.le_refl _)] at hv; cases hv
    · exact shows_mats (mats := d.mats) hsh
  · intro w hw
    rcases mem_append_one hw with hw | rfl
    · exact h.group w hw
    · exact hg
  · intro w hw
    rcases mem_append_one hw with hw | rfl
    · exact h.small w hw
    · exact hs

/-- A window of consecutive rows. -/
theorem Spec.Shows.window {d : Device R} {m : DevMatrix} {v : Val R} (h : Shows d m v) {a n : Nat}
    (hb : a + n ≤ v.rows.length) :
    Shows d { m with rows := n, off := m.off + a * m.cols } { v with rows := (v.rows.drop a).take n } := by
  refine ⟨h.group, h.cols, h.itemsize, ?_, ?_, ?_⟩
  · simp only [List.length_take, List.length_drop]; omega
  · intro row hrow
    exact h.width row (List.mem_of_mem_drop (List.mem_of_mem_take hrow))
  · intro r row hr c hc
    have hr' : v.rows[a + r]? = some row := by
      rw [List.getElem?_take] at hr
      split at hr
      · rwa [List.getElem?_drop] at hr
      · cases hr
    rw [h.cells (a + r) row hr' c hc]
    dsimp only
    congr 1
    rw [Nat.add_mul]; omega

theorem toInt32_of {i : Int} (h1 : -2 ^ 31 ≤ i) (h2 : i < 2 ^ 31) : toInt32 i = i := by
  unfold toInt32; omega

end Implicit
