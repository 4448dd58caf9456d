import Verif.Model.NearestNeighbours
import Mathlib.Algebra.BigOperators.Group.List.Basic
import Mathlib.Data.List.Nodup

/-!
# The linked list threaded through `nonzeros`
-/

namespace Implicit

variable {R : Type}

/-- Following the links from `h` gives the indices `l`; the end is marked `-2`. -/
def Linked (next : List Int) : List Nat → Int → Prop
  | [], h => h = -2
  | i :: l, h => h = (i : Int) ∧ ∃ nx, next[i]? = some nx ∧ Linked next l nx

theorem Linked.ne {next : List Int} {l : List Nat} {h : Int} (hl : Linked next l h) : h ≠ -1 := by
  cases l with
  | nil => unfold Linked at hl; omega
  | cons i l => have := hl.1; omega

theorem Linked.mem_ne {next : List Int} : ∀ {l : List Nat} {h : Int}, Linked next l h →
    ∀ i ∈ l, ∃ nx, next[i]? = some nx ∧ nx ≠ -1
  | [], _, _, i, hi => by simp at hi
  | j :: l, h, hl, i, hi => by
    obtain ⟨_, nx, hnx, hl'⟩ := hl
    rcases List.mem_cons.mp hi with rfl | hi
    · exact ⟨nx, hnx, hl'.ne⟩
    · exact hl'.mem_ne i hi

/-- Changing the link of an index outside the list does not change the list. -/
theorem Linked.set {next : List Int} {k : Nat} {v : Int} : ∀ {l : List Nat} {h : Int},
    Linked next l h → k ∉ l → Linked (next.set k v) l h
  | [], _, hl, _ => hl
  | i :: l, h, hl, hk => by
    obtain ⟨h1, nx, hnx, hl'⟩ := hl
    simp only [List.mem_cons, not_or] at hk
    exact ⟨h1, nx, by rw [List.getElem?_set_ne hk.1]; exact hnx, hl'.set hk.2⟩

section
variable [Zero R]

/-- The accumulator `a` of size `n` holds the touched indices `l` (last first) with the sums `s`. -/
structure Rep (n : Nat) (a : Accum R) (l : List Nat) (s : Nat → R) : Prop where
  sums : ∀ j, a.sums[j]? = if j < n then some (s j) else none
  next : a.next.length = n
  linked : Linked a.next l a.head
  nodup : l.Nodup
  bound : ∀ j ∈ l, j < n
  free : ∀ j < n, j ∉ l → a.next[j]? = some (-1)
  zero : ∀ j, j ∉ l → s j = 0

theorem Rep.new (n : Nat) : Rep n (Accum.new n : Accum R) [] (fun _ => 0) := by
  refine ⟨fun j => ?_, by simp [Accum.new], rfl, by simp, by simp, fun j hj _ => ?_, fun _ _ => rfl⟩
  · simp [Accum.new, List.getElem?_replicate]
  · simp [Accum.new, hj]

theorem Rep.sums_length {n : Nat} {a : Accum R} {l : List Nat} {s : Nat → R} (h : Rep n a l s) :
    a.sums.length = n := by
  have h1 := h.sums n
  rw [if_neg (by omega), List.getElem?_eq_none_iff] at h1
  by_contra hne
  have h2 := h.sums a.sums.length
  rw [if_pos (by omega)] at h2
  simp at h2

/-- `sums` is determined by the function of sums. -/
theorem Rep.sums_eq {n : Nat} {a : Accum R} {l : List Nat} {s : Nat → R} (h : Rep n a l s) :
    a.sums = (List.range n).map s := by
  apply List.ext_getElem?
  intro j
  rw [h.sums j]
  by_cases hj : j < n <;> simp [hj]

theorem Rep.empty {n : Nat} {a : Accum R} {s : Nat → R} (h : Rep n a [] s) :
    ({ a with length := 0, head := -2 } : Accum R) = Accum.new n := by
  have h1 : a.sums = List.replicate n 0 := by
    apply List.ext_getElem?
    intro j
    rw [h.sums j, List.getElem?_replicate, h.zero j (by simp)]
  have h2 : a.next = List.replicate n (-1) := by
    apply List.ext_getElem?
    intro j
    rw [List.getElem?_replicate]
    split_ifs with hj
    · exact h.free j hj (by simp)
    · rw [List.getElem?_eq_none_iff, h.next]; omega
  unfold Accum.new
  rw [← h1, ← h2]

theorem set_sums {n : Nat} {sums : List R} {s : Nat → R}
    (h : ∀ j, sums[j]? = if j < n then some (s j) else none) {i : Nat} (hi : i < n) (v : R) (j : Nat) :
    (sums.set i v)[j]? = if j < n then some (Function.update s i v j) else none := by
  by_cases hij : j = i
  · subst hij
    have hlt : j < sums.length := by
      by_contra hc
      have := h j
      rw [List.getElem?_eq_none_iff.mpr (by omega), if_pos hi] at this
      cases this
    rw [List.getElem?_set_self hlt, if_pos hi, Function.update_self]
  · rw [List.getElem?_set_ne (fun e => hij e.symm), h j, Function.update_of_ne hij]

/-- `add`. -/
theorem Rep.add [Add R] {n : Nat} {a : Accum R} {l : List Nat} {s : Nat → R} (h : Rep n a l s)
    {i : Nat} (hi : i < n) (v : R) (hlen : a.length = l.length) :
    ∃ a', a.add i v = .ok a' ∧
      Rep n a' (if i ∈ l then l else i :: l) (Function.update s i (s i + v)) ∧
      a'.length = (if i ∈ l then l else i :: l).length := by
  have hs : a.sums[i]? = some (s i) := by rw [h.sums, if_pos hi]
  by_cases hil : i ∈ l
  · obtain ⟨nx, hnx, hne⟩ := h.linked.mem_ne i hil
    refine ⟨{ a with sums := a.sums.set i (s i + v) }, ?_, ?_, ?_⟩
    · unfold Accum.add; simp only [hs, hnx, if_neg hne]
    · rw [if_pos hil]
      exact ⟨set_sums h.sums hi _, h.next, h.linked, h.nodup, h.bound, h.free, fun j hj => by
        rw [Function.update_of_ne (by rintro rfl; exact hj hil)]; exact h.zero j hj⟩
    · rw [if_pos hil]; exact hlen
  · have hnx := h.free i hi hil
    refine ⟨⟨a.sums.set i (s i + v), a.next.set i a.head, (i : Int), a.length + 1⟩, ?_, ?_, ?_⟩
    · unfold Accum.add; simp only [hs, hnx, if_true]
    · rw [if_neg hil]
      refine ⟨set_sums h.sums hi _, by simpa using h.next, ?_, ?_, ?_, ?_, ?_⟩
      · refine ⟨rfl, a.head, ?_, h.linked.set hil⟩
        rw [List.getElem?_set_self (by rw [h.next]; exact hi)]
      · exact List.nodup_cons.mpr ⟨hil, h.nodup⟩
      · intro j hj
        rcases List.mem_cons.mp hj with rfl | hj
        · exact hi
        · exact h.bound j hj
      · intro j hj hjl
        simp only [List.mem_cons, not_or] at hjl
        simp only
        rw [List.getElem?_set_ne (fun e => hjl.1 e.symm)]
        exact h.free j hj hjl.2
      · intro j hj
        simp only [List.mem_cons, not_or] at hj
        rw [Function.update_of_ne hj.1]
        exact h.zero j hj.2
    · rw [if_neg hil]; simp [hlen]

end

/-- The sum of the values added at `j`. -/
def totalAt [AddCommMonoid R] (es : List (Nat × R)) (j : Nat) : R :=
  ((es.filter fun e => e.1 == j).map Prod.snd).sum

theorem totalAt_cons [AddCommMonoid R] (e : Nat × R) (es : List (Nat × R)) (j : Nat) :
    totalAt (e :: es) j = (if e.1 = j then e.2 else 0) + totalAt es j := by
  unfold totalAt
  rw [List.filter_cons]
  by_cases h : e.1 = j <;> simp [h]

/-- A sequence of `add`s. -/
theorem Rep.addAll [AddCommMonoid R] {n : Nat} : ∀ (es : List (Nat × R)) {a : Accum R} {l : List Nat} {s : Nat → R},
    Rep n a l s → a.length = l.length → (∀ e ∈ es, e.1 < n) →
    ∃ a' l', a.addAll es = .ok a' ∧ Rep n a' l' (fun j => s j + totalAt es j) ∧
      a'.length = l'.length ∧ ∀ j, j ∈ l' ↔ j ∈ l ∨ j ∈ es.map Prod.fst
  | [], a, l, s, h, hlen, _ =>
    ⟨a, l, rfl, by simpa [totalAt] using h, hlen, by simp⟩
  | e :: es, a, l, s, h, hlen, hes => by
    obtain ⟨a1, e1, h1, hlen1⟩ := h.add (hes e (by simp)) e.2 hlen
    obtain ⟨a2, l2, e2, h2, hlen2, hmem⟩ := Rep.addAll es h1 hlen1 (fun x hx => hes x (by simp [hx]))
    refine ⟨a2, l2, by unfold Accum.addAll; rw [e1]; exact e2, ?_, hlen2, ?_⟩
    · have : (fun j => s j + totalAt (e :: es) j) =
          fun j => Function.update s e.1 (s e.1 + e.2) j + totalAt es j := by
        funext j
        rw [totalAt_cons]
        by_cases hj : j = e.1
        · subst hj; rw [Function.update_self, if_pos rfl, add_assoc]
        · rw [Function.update_of_ne hj, if_neg (fun e => hj e.symm), zero_add]
      rw [this]; exact h2
    · intro j
      rw [hmem, List.map_cons, List.mem_cons]
      split_ifs with hin
      · constructor
        · rintro (h | h)
          · exact Or.inl h
          · exact Or.inr (Or.inr h)
        · rintro (h | rfl | h)
          · exact Or.inl h
          · exact Or.inl hin
          · exact Or.inr h
      · rw [List.mem_cons]; tauto

/-- `sums[i] = 0` on some indices. -/
theorem Rep.clearAll [Zero R] {n : Nat} : ∀ (is : List Nat) {a : Accum R} {l : List Nat} {s : Nat → R},
    Rep n a l s → (∀ i ∈ is, i < n) →
    ∃ a', a.clearAll is = .ok a' ∧ Rep n a' l (fun j => if j ∈ is then 0 else s j) ∧
      a'.length = a.length
  | [], a, l, s, h, _ => ⟨a, rfl, by simpa using h, rfl⟩
  | i :: is, a, l, s, h, his => by
    have hi := his i (by simp)
    have h1 : Rep n { a with sums := a.sums.set i 0 } l (Function.update s i 0) :=
      ⟨set_sums h.sums hi _, h.next, h.linked, h.nodup, h.bound, h.free, fun j hj => by
        by_cases hji : j = i
        · subst hji; rw [Function.update_self]
        · rw [Function.update_of_ne hji]; exact h.zero j hj⟩
    obtain ⟨a2, e2, h2, hlen⟩ := Rep.clearAll is h1 (fun x hx => his x (by simp [hx]))
    refine ⟨a2, ?_, ?_, hlen⟩
    · unfold Accum.clearAll Accum.clear
      rw [if_pos (by rw [h.sums_length]; exact hi)]
      exact e2
    · have : (fun j => if j ∈ i :: is then 0 else s j) =
          fun j => if j ∈ is then 0 else Function.update s i 0 j := by
        funext j
        by_cases hj : j ∈ is
        · simp [hj]
        · by_cases hji : j = i
          · subst hji; simp
          · simp [hj, hji]
      rw [this]; exact h2

/-- `foreach`. -/
theorem Rep.drain [Zero R] {n : Nat} : ∀ (l : List Nat) {a : Accum R} {s : Nat → R}, Rep n a l s →
    a.drain l.length = .ok (l.map fun i => (i, s i), Accum.new n)
  | [], a, s, h => by
    show Except.ok ([], _) = _
    rw [h.empty]; rfl
  | i :: l, a, s, h => by
    have hi := h.bound i (by simp)
    have hs : a.sums[i]? = some (s i) := by rw [h.sums, if_pos hi]
    obtain ⟨hh, nx, hnx, hl⟩ := h.linked
    have hnd := List.nodup_cons.mp h.nodup
    have h1 : Rep n ⟨a.sums.set i 0, a.next.set i (-1), nx, a.length⟩ l (Function.update s i 0) := by
      refine ⟨set_sums h.sums hi _, by simpa using h.next, hl.set hnd.1, hnd.2,
        fun j hj => h.bound j (by simp [hj]), ?_, ?_⟩
      · intro j hj hjl
        by_cases hji : j = i
        · subst hji
          simp only
          rw [List.getElem?_set_self (by rw [h.next]; exact hi)]
        · simp only
          rw [List.getElem?_set_ne (fun e => hji e.symm)]
          exact h.free j hj (by simp [hji, hjl])
      · intro j hj
        by_cases hji : j = i
        · subst hji; rw [Function.update_self]
        · rw [Function.update_of_ne hji]; exact h.zero j (by simp [hji, hj])
    have ih := Rep.drain l h1
    rw [List.length_cons]
    unfold Accum.drain
    rw [hh]
    simp only [Int.ofNat_eq_natCast]
    show (match a.sums[i]?, a.next[i]? with
      | some s, some nx => _
      | _, _ => _) = _
    rw [hs, hnx]
    simp only [ih]
    show Except.ok _ = Except.ok _
    congr 2
    rw [List.map_cons]
    congr 1
    refine List.map_congr_left fun j hj => ?_
    have : j ≠ i := by rintro rfl; exact hnd.1 hj
    rw [Function.update_of_ne this]

/-- A round of the accumulator: add, then enumerate. -/
theorem round_ok [AddCommMonoid R] {n : Nat} (es : List (Nat × R)) (hes : ∀ e ∈ es, e.1 < n) :
    ∃ a l, (Accum.new n : Accum R).addAll es = .ok a ∧ Rep n a l (totalAt es) ∧
      a.length = l.length ∧ (∀ j, j ∈ l ↔ j ∈ es.map Prod.fst) ∧
      a.foreach = .ok (l.map fun i => (i, totalAt es i), Accum.new n) := by
  obtain ⟨a, l, e1, h, hlen, hmem⟩ := Rep.addAll es (Rep.new (R := R) n) rfl hes
  simp only [zero_add] at h
  refine ⟨a, l, e1, h, hlen, by simpa using hmem, ?_⟩
  unfold Accum.foreach
  rw [hlen]
  exact h.drain

end Implicit
