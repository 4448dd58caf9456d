import Verif.Model.DeviceLifetime
/-!
# The device memory of matrices: what every operation keeps
-/

namespace Implicit

/-- Some matrix has a `shared_ptr` to buffer `n`. -/
def BufState.Refers (s : BufState) (n : Nat) : Prop := ∃ (k : Nat) (m : BufMatrix), s.objs[k]? = some (some m) ∧ m.storage = some n

/-- What is kept; `extra` is a buffer whose `shared_ptr` is about to be dropped. -/
structure BufInv (s : BufState) (extra : Option Nat) : Prop where
  nodup : s.live.Nodup
  owned : ∀ n, n ∈ s.live ↔ s.Refers n ∨ extra = some n
  below : ∀ n ∈ s.live, n < s.next
  data : ∀ (k : Nat) (m : BufMatrix), s.objs[k]? = some (some m) →
    (∃ n, m.storage = some n ∧ m.data = .buffer n) ∨ (m.storage = none ∧ ∃ f ∈ s.foreign, m.data = .foreign f)
  refs : ∀ (k : Nat) (m : BufMatrix), s.objs[k]? = some (some m) → 1 ≤ m.refs ∧ (s.pending.countP fun c => c.1 == k) ≤ m.refs
  calls : ∀ c ∈ s.pending, ∃ m, s.objs[c.1]? = some (some m) ∧ m.data = c.2
  sound : s.broken = false

theorem obj?_some {s : BufState} {k : Nat} {m : BufMatrix} (h : s.obj? k = some m) : s.objs[k]? = some (some m) := by
  unfold BufState.obj? at h
  cases ho : s.objs[k]? with
  | none => rw [ho] at h; simp at h
  | some o => rw [ho] at h; simpa using h

theorem bufInv_start (foreign : List Nat) : BufInv (.start foreign) none := by
  refine ⟨by simp [BufState.start], ?_, ?_, ?_, ?_, ?_, rfl⟩
  · intro n
    simp [BufState.start, BufState.Refers]
  all_goals simp [BufState.start]

theorem BufInv.unref {s : BufState} {extra : Option Nat} (h : BufInv s extra) : BufInv (s.unref extra) none := by
  cases extra with
  | none => exact h
  | some n =>
    have hany : (s.objs.any fun m => decide (m.bind BufMatrix.storage = some n)) = true ↔ s.Refers n := by
      rw [List.any_eq_true]
      constructor
      · rintro ⟨o, ho, hd⟩
        obtain ⟨k, hk, rfl⟩ := List.getElem_of_mem ho
        cases hm : s.objs[k] with
        | none => rw [hm] at hd; simp at hd
        | some m =>
          rw [hm] at hd
          exact ⟨k, m, by rw [List.getElem?_eq_getElem hk, hm], by simpa using hd⟩
      · rintro ⟨k, m, hk, hm⟩
        exact ⟨some m, List.mem_of_getElem? hk, by simpa using hm⟩
    unfold BufState.unref
    simp only
    split_ifs with hc
    · have hr := hany.mp hc
      refine { h with owned := fun n' => ?_ }
      rw [h.owned]
      constructor
      · rintro (h' | h')
        · exact .inl h'
        · cases h'; exact .inl hr
      · rintro (h' | h')
        · exact .inl h'
        · cases h'
    · have hr : ¬ s.Refers n := fun hr => hc (hany.mpr hr)
      refine ⟨h.nodup.erase _, fun n' => ?_, fun n' hn' => h.below n' (List.mem_of_mem_erase hn'), h.data, h.refs, h.calls, h.sound⟩
      show n' ∈ s.live.erase n ↔ s.Refers n' ∨ none = some n'
      rw [h.nodup.mem_erase_iff, h.owned]
      constructor
      · rintro ⟨hne, h' | h'⟩
        · exact .inl h'
        · cases h'; exact absurd rfl hne
      · rintro (h' | h')
        · refine ⟨?_, .inl h'⟩
          rintro rfl
          exact hr h'
        · cases h'

theorem BufInv.valid {s : BufState} (h : BufInv s none) {k : Nat} {m : BufMatrix} (hm : s.objs[k]? = some (some m)) :
    s.valid m.data = true := by
  rcases h.data k m hm with ⟨n, hs, hd⟩ | ⟨_, f, hf, hd⟩
  · rw [hd]
    simp only [BufState.valid, List.contains_eq_mem, decide_eq_true_eq]
    exact (h.owned n).mpr (.inl ⟨k, m, hm, hs⟩)
  · rw [hd]
    simpa [BufState.valid] using hf

theorem BufInv.touch {s : BufState} (h : BufInv s none) {k : Nat} {m : BufMatrix} (hm : s.objs[k]? = some (some m)) :
    s.touch m.data = s := by
  unfold BufState.touch
  rw [h.valid hm]
  rfl

theorem getElem?_append_last_cases {α : Type} {l : List α} {a x : α} {k : Nat} (h : (l ++ [a])[k]? = some x) :
    l[k]? = some x ∨ (k = l.length ∧ x = a) := by
  rcases Nat.lt_trichotomy k l.length with hk | hk | hk
  · rw [List.getElem?_append_left hk] at h
    exact .inl h
  · subst hk
    simp at h
    exact .inr ⟨rfl, h.symm⟩
  · rw [List.getElem?_append_right (by omega)] at h
    have : k - l.length ≠ 0 := by omega
    obtain ⟨d, hd⟩ := Nat.exists_eq_succ_of_ne_zero this
    rw [hd] at h
    simp at h

theorem pending_lt {s : BufState} {extra : Option Nat} (h : BufInv s extra) : ∀ c ∈ s.pending, c.1 < s.objs.length := by
  intro c hc
  obtain ⟨m, hm, _⟩ := h.calls c hc
  exact (List.getElem?_eq_some_iff.mp hm).1

/-- One more matrix. -/
theorem BufInv.push {s : BufState} (h : BufInv s none) (m : BufMatrix) (live : List Nat) (next : Nat)
    (hnodup : live.Nodup) (hlive : ∀ n, n ∈ live ↔ n ∈ s.live ∨ m.storage = some n) (hbelow : ∀ n ∈ live, n < next)
    (hdata : (∃ n, m.storage = some n ∧ m.data = .buffer n) ∨ (m.storage = none ∧ ∃ f ∈ s.foreign, m.data = .foreign f))
    (hrefs : m.refs = 1) :
    BufInv { s with live := live, next := next, objs := s.objs ++ [some m] } none := by
  have hold : ∀ (k : Nat) (x : Option BufMatrix), s.objs[k]? = some x → (s.objs ++ [some m])[k]? = some x := by
    intro k x hx
    rw [List.getElem?_append_left (List.getElem?_eq_some_iff.mp hx).1]
    exact hx
  refine ⟨hnodup, fun n => ?_, hbelow, fun k m' hm' => ?_, fun k m' hm' => ?_, fun c hc => ?_, h.sound⟩
  · show n ∈ live ↔ _
    rw [hlive, h.owned]
    constructor
    · rintro ((⟨k, m', hm', hs⟩ | h') | h')
      · exact .inl ⟨k, m', hold _ _ hm', hs⟩
      · cases h'
      · exact .inl ⟨s.objs.length, m, by simp, h'⟩
    · rintro (⟨k, m', hm', hs⟩ | h')
      · rcases getElem?_append_last_cases hm' with h' | ⟨_, h'⟩
        · exact .inl (.inl ⟨k, m', h', hs⟩)
        · cases h'
          exact .inr hs
      · cases h'
  · rcases getElem?_append_last_cases hm' with h' | ⟨_, h'⟩
    · exact h.data k m' h'
    · cases h'
      exact hdata
  · rcases getElem?_append_last_cases hm' with h' | ⟨hk, h'⟩
    · exact h.refs k m' h'
    · cases h'
      refine ⟨by omega, ?_⟩
      rw [List.countP_eq_zero.mpr]
      · omega
      · intro c hc
        have := pending_lt h c hc
        simp only [beq_iff_eq]
        omega
  · obtain ⟨m', hm', hd⟩ := h.calls c hc
    exact ⟨m', hold _ _ hm', hd⟩

theorem BufInv.fresh {s : BufState} (h : BufInv s none) : BufInv s.fresh none := by
  refine h.push ⟨1, some s.next, .buffer s.next⟩ (s.next :: s.live) (s.next + 1) ?_ ?_ ?_ (.inl ⟨_, rfl, rfl⟩) rfl
  · exact List.nodup_cons.mpr ⟨fun hn => by have := h.below _ hn; omega, h.nodup⟩
  · intro n
    rw [List.mem_cons]
    constructor
    · rintro (rfl | h')
      · exact .inr rfl
      · exact .inl h'
    · rintro (h' | h')
      · exact .inr h'
      · cases h'; exact .inl rfl
  · intro n hn
    rcases List.mem_cons.mp hn with rfl | hn
    · omega
    · have := h.below n hn
      omega

/-- Matrix `k` is replaced by one with the same data, or, if no call uses it, by one with other data. -/
theorem BufInv.replace {s : BufState} (h : BufInv s none) {k : Nat} {m : BufMatrix} (hm : s.objs[k]? = some (some m)) (m' : BufMatrix)
    (hsame : m'.storage = m.storage ∧ m'.data = m.data) (pending : List (Nat × BufPtr))
    (hrefs : 1 ≤ m'.refs ∧ (pending.countP fun c => c.1 == k) ≤ m'.refs)
    (hpend : ∀ c ∈ pending, c ∈ s.pending ∨ (c.1 = k ∧ c.2 = m.data))
    (hcount : ∀ j, j ≠ k → (pending.countP fun c => c.1 == j) ≤ s.pending.countP fun c => c.1 == j) :
    BufInv { s with objs := s.objs.set k (some m'), pending := pending } none := by
  have hk := (List.getElem?_eq_some_iff.mp hm).1
  have hget : ∀ j x, (s.objs.set k (some m'))[j]? = some x → (j = k ∧ x = some m') ∨ (j ≠ k ∧ s.objs[j]? = some x) := by
    intro j x hx
    by_cases hj : j = k
    · subst hj
      rw [List.getElem?_set_self hk] at hx
      cases hx
      exact .inl ⟨rfl, rfl⟩
    · rw [List.getElem?_set_ne (by omega)] at hx
      exact .inr ⟨hj, hx⟩
  have hset : ∀ j, j ≠ k → (s.objs.set k (some m'))[j]? = s.objs[j]? := fun j hj => List.getElem?_set_ne (by omega)
  have hself : (s.objs.set k (some m'))[k]? = some (some m') := List.getElem?_set_self hk
  refine ⟨h.nodup, fun n => ?_, h.below, fun j x hx => ?_, fun j x hx => ?_, fun c hc => ?_, h.sound⟩
  · show n ∈ s.live ↔ _
    rw [h.owned]
    constructor
    · rintro (⟨j, x, hx, hs⟩ | h')
      · left
        by_cases hj : j = k
        · subst hj
          rw [hm] at hx
          cases hx
          exact ⟨j, m', hself, by rw [hsame.1]; exact hs⟩
        · exact ⟨j, x, by show (s.objs.set k (some m'))[j]? = _; rw [hset j hj]; exact hx, hs⟩
      · cases h'
    · rintro (⟨j, x, hx, hs⟩ | h')
      · left
        rcases hget j _ hx with ⟨rfl, h'⟩ | ⟨_, h'⟩
        · cases h'
          exact ⟨j, m, hm, by rw [← hsame.1]; exact hs⟩
        · exact ⟨j, x, h', hs⟩
      · cases h'
  · rcases hget j _ hx with ⟨rfl, h'⟩ | ⟨_, h'⟩
    · cases h'
      rw [hsame.1, hsame.2]
      exact h.data j m hm
    · exact h.data j x h'
  · rcases hget j _ hx with ⟨rfl, h'⟩ | ⟨hj, h'⟩
    · cases h'
      exact hrefs
    · exact ⟨(h.refs j x h').1, Nat.le_trans (hcount j hj) (h.refs j x h').2⟩
  · by_cases hck : c.1 = k
    · refine ⟨m', by rw [hck]; exact hself, ?_⟩
      rcases hpend c hc with h' | h'
      · obtain ⟨x, hx, hd⟩ := h.calls c h'
        rw [hck, hm] at hx
        cases hx
        rw [hsame.2]
        exact hd
      · rw [hsame.2]
        exact h'.2.symm
    · rcases hpend c hc with h' | h'
      · obtain ⟨x, hx, hd⟩ := h.calls c h'
        exact ⟨x, by show (s.objs.set k (some m'))[c.1]? = _; rw [hset _ hck]; exact hx, hd⟩
      · exact absurd h'.1 hck

/-- A reference is dropped, with `pending` the calls that keep theirs. -/
theorem BufInv.decref {s : BufState} (h : BufInv s none) (k : Nat)
    (hk : ∀ m, s.objs[k]? = some (some m) → (s.pending.countP fun c => c.1 == k) < m.refs) : BufInv (s.decref k) none := by
  unfold BufState.decref
  cases ho : s.obj? k with
  | none => exact h
  | some m =>
    have hm := obj?_some ho
    have hkl := (List.getElem?_eq_some_iff.mp hm).1
    have hlt := hk m hm
    simp only
    split_ifs with hr
    · refine BufInv.unref (s := { s with objs := s.objs.set k none }) ?_
      have hno : ∀ c ∈ s.pending, c.1 ≠ k := by
        have h0 : (s.pending.countP fun c => c.1 == k) = 0 := by omega
        intro c hc
        have := (List.countP_eq_zero.mp h0) c hc
        simpa using this
      have hget : ∀ j x, (s.objs.set k none)[j]? = some (some x) → j ≠ k ∧ s.objs[j]? = some (some x) := by
        intro j x hx
        by_cases hj : j = k
        · subst hj
          rw [List.getElem?_set_self hkl] at hx
          cases hx
        · rw [List.getElem?_set_ne (by omega)] at hx
          exact ⟨hj, hx⟩
      have hset : ∀ j, j ≠ k → (s.objs.set k none)[j]? = s.objs[j]? := fun j hj => List.getElem?_set_ne (by omega)
      refine ⟨h.nodup, fun n => ?_, h.below, fun j x hx => h.data j x (hget j x hx).2, fun j x hx => h.refs j x (hget j x hx).2,
        fun c hc => ?_, h.sound⟩
      · show n ∈ s.live ↔ _
        rw [h.owned]
        constructor
        · rintro (⟨j, x, hx, hs⟩ | h')
          · by_cases hj : j = k
            · subst hj
              rw [hm] at hx
              cases hx
              exact .inr hs
            · exact .inl ⟨j, x, by show (s.objs.set k none)[j]? = _; rw [hset j hj]; exact hx, hs⟩
          · cases h'
        · rintro (⟨j, x, hx, hs⟩ | h')
          · exact .inl ⟨j, x, (hget j x hx).2, hs⟩
          · exact .inl ⟨k, m, hm, h'⟩
      · obtain ⟨x, hx, hd⟩ := h.calls c hc
        exact ⟨x, by show (s.objs.set k none)[c.1]? = _; rw [hset _ (hno c hc)]; exact hx, hd⟩
    · exact h.replace hm { m with refs := m.refs - 1 } ⟨rfl, rfl⟩ s.pending ⟨by show 1 ≤ m.refs - 1; omega, by show _ ≤ m.refs - 1; omega⟩ (fun c hc => .inl hc)
        fun j _ => Nat.le_refl _

/-- The steps for which the memory is looked after: an array of someone else exists when it is wrapped and as long as it is wrapped;
`resize` is not called while another call uses the matrix, and its copy does not fail. -/
def BufOp.Careful (s : BufState) : BufOp → Prop
  | .wrap f => f ∈ s.foreign
  | .resize k _ _ copyFails _ => copyFails = false ∧ ∀ c ∈ s.pending, c.1 ≠ k
  | .dropForeign f => ∀ (k : Nat) (m : BufMatrix), s.objs[k]? = some (some m) → m.data ≠ .foreign f
  | _ => True

theorem BufInv.step {s : BufState} (h : BufInv s none) (op : BufOp) (hc : op.Careful s) : BufInv (op.step s).1 none := by
  cases op with
  | create a c =>
    simp only [BufOp.step]
    split_ifs
    · exact h
    · exact h.fresh
  | wrap f =>
    refine h.push ⟨1, none, .foreign f⟩ s.live s.next h.nodup (fun n => ?_) h.below (.inr ⟨rfl, f, hc, rfl⟩) rfl
    simp
  | share k raises =>
    simp only [BufOp.step]
    cases ho : s.obj? k with
    | none => exact h
    | some m =>
      have hm := obj?_some ho
      simp only
      split_ifs
      · exact h
      · refine h.push { m with refs := 1 } s.live s.next h.nodup (fun n => ?_) h.below (h.data k m hm) rfl
        constructor
        · exact .inl
        · rintro (h' | h')
          · exact h'
          · exact (h.owned n).mpr (.inl ⟨k, m, hm, h'⟩)
  | copy k a c =>
    simp only [BufOp.step]
    cases ho : s.obj? k with
    | none => exact h
    | some m =>
      have hm := obj?_some ho
      simp only [h.touch hm]
      split_ifs
      · exact h
      · exact h
      · exact h.fresh
  | resize k raises a c z =>
    obtain ⟨hcf, hpend⟩ := hc
    simp only [BufOp.step]
    cases ho : s.obj? k with
    | none => exact h
    | some m =>
      have hm := obj?_some ho
      have hkl := (List.getElem?_eq_some_iff.mp hm).1
      simp only [hcf, Bool.false_eq_true, if_false]
      by_cases hr : (raises || a) = true
      · rw [if_pos hr]
        exact h
      · rw [if_neg hr]
        have htouch : ({ s with live := s.next :: s.live, next := s.next + 1 } : BufState).touch m.data =
            { s with live := s.next :: s.live, next := s.next + 1 } := by
          unfold BufState.touch
          have hv := h.valid hm
          have : ({ s with live := s.next :: s.live, next := s.next + 1 } : BufState).valid m.data = true := by
            cases hd : m.data with
            | buffer n =>
              rw [hd] at hv
              simp only [BufState.valid, List.contains_eq_mem, decide_eq_true_eq] at hv ⊢
              exact List.mem_cons_of_mem _ hv
            | foreign f => rw [hd] at hv; exact hv
          rw [this]
          rfl
        rw [htouch]
        refine BufInv.unref ?_
        have hnext : s.next ∉ s.live := fun hn => by have := h.below _ hn; omega
        have hget : ∀ j x, (s.objs.set k (some { m with storage := some s.next, data := .buffer s.next }))[j]? = some (some x) →
            (j = k ∧ x = { m with storage := some s.next, data := .buffer s.next }) ∨ (j ≠ k ∧ s.objs[j]? = some (some x)) := by
          intro j x hx
          by_cases hj : j = k
          · subst hj
            rw [List.getElem?_set_self hkl] at hx
            cases hx
            exact .inl ⟨rfl, rfl⟩
          · rw [List.getElem?_set_ne (by omega)] at hx
            exact .inr ⟨hj, hx⟩
        have hset : ∀ j, j ≠ k →
            (s.objs.set k (some { m with storage := some s.next, data := .buffer s.next }))[j]? = s.objs[j]? :=
          fun j hj => List.getElem?_set_ne (by omega)
        refine ⟨List.nodup_cons.mpr ⟨hnext, h.nodup⟩, fun n => ?_, ?_, ?_, ?_, ?_, h.sound⟩
        · show n ∈ s.next :: s.live ↔ _
          rw [List.mem_cons, h.owned]
          constructor
          · rintro (rfl | ⟨j, x, hx, hs⟩ | h')
            · exact .inl ⟨k, _, List.getElem?_set_self hkl, rfl⟩
            · by_cases hj : j = k
              · subst hj
                rw [hm] at hx
                cases hx
                exact .inr hs
              · exact .inl ⟨j, x, by
                  show (s.objs.set k _)[j]? = _
                  rw [hset j hj]
                  exact hx, hs⟩
            · cases h'
          · rintro (⟨j, x, hx, hs⟩ | h')
            · rcases hget j x hx with ⟨rfl, rfl⟩ | ⟨_, h'⟩
              · cases hs
                exact .inl rfl
              · exact .inr (.inl ⟨j, x, h', hs⟩)
            · exact .inr (.inl ⟨k, m, hm, h'⟩)
        · intro n hn
          show n < s.next + 1
          rcases List.mem_cons.mp hn with rfl | hn
          · omega
          · have := h.below n hn
            omega
        · intro j x hx
          rcases hget j x hx with ⟨rfl, rfl⟩ | ⟨_, h'⟩
          · exact .inl ⟨_, rfl, rfl⟩
          · exact h.data j x h'
        · intro j x hx
          rcases hget j x hx with ⟨rfl, rfl⟩ | ⟨_, h'⟩
          · exact h.refs j m hm
          · exact h.refs j x h'
        · intro c hc
          obtain ⟨x, hx, hd⟩ := h.calls c hc
          exact ⟨x, by show (s.objs.set k _)[c.1]? = _; rw [hset _ (hpend c hc)]; exact hx, hd⟩
  | use k =>
    simp only [BufOp.step]
    cases ho : s.obj? k with
    | none => exact h
    | some m =>
      simp only [h.touch (obj?_some ho)]
      exact h
  | enter k =>
    simp only [BufOp.step]
    cases ho : s.obj? k with
    | none => exact h
    | some m =>
      have hm := obj?_some ho
      refine h.replace hm { m with refs := m.refs + 1 } ⟨rfl, rfl⟩ (s.pending ++ [(k, m.data)])
        ⟨by show 1 ≤ m.refs + 1; omega, ?_⟩ (fun c hc => ?_) fun j hj => ?_
      · rw [List.countP_append]
        have := (h.refs k m hm).2
        simpa using this
      · rcases List.mem_append.mp hc with h' | h'
        · exact .inl h'
        · simp only [List.mem_singleton] at h'
          rw [h']
          exact .inr ⟨rfl, rfl⟩
      · rw [List.countP_append]
        have : ¬ k = j := fun e => hj e.symm
        simp [this]
  | leave =>
    simp only [BufOp.step]
    cases hp : s.pending with
    | nil => exact h
    | cons c rest =>
      obtain ⟨k, p⟩ := c
      obtain ⟨m, hm, hd⟩ := h.calls (k, p) (by rw [hp]; simp)
      have hle : ∀ j, (rest.countP fun c => c.1 == j) ≤ s.pending.countP fun c => c.1 == j := by
        intro j
        rw [hp, List.countP_cons]
        omega
      have h1 : BufInv { s with pending := rest } none := by
        refine ⟨h.nodup, h.owned, h.below, h.data, fun j x hx => ⟨(h.refs j x hx).1, Nat.le_trans (hle j) (h.refs j x hx).2⟩,
          fun c hc => h.calls c (by rw [hp]; simp [hc]), h.sound⟩
      have ht : ({ s with pending := rest } : BufState).touch p = { s with pending := rest } := by
        have hd' : m.data = p := hd
        rw [← hd']
        exact h1.touch hm
      simp only [ht]
      refine h1.decref k fun m' hm' => ?_
      have hm'' : s.objs[k]? = some (some m') := hm'
      rw [hm] at hm''
      cases hm''
      have := (h.refs k m hm).2
      rw [hp, List.countP_cons] at this
      simp only [beq_self_eq_true, if_true] at this
      show (rest.countP fun c => c.1 == k) < m.refs
      omega
  | drop k =>
    simp only [BufOp.step]
    cases ho : s.obj? k with
    | none => exact h
    | some m =>
      simp only
      split_ifs with hlt
      · refine h.decref k fun m' hm' => ?_
        rw [obj?_some ho] at hm'
        cases hm'
        exact hlt
      · exact h
  | dropForeign f =>
    refine ⟨h.nodup, h.owned, h.below, fun k m hm => ?_, h.refs, h.calls, h.sound⟩
    rcases h.data k m hm with h' | ⟨hs, g, hg, hd⟩
    · exact .inl h'
    · refine .inr ⟨hs, g, ?_, hd⟩
      have hne : g ≠ f := fun e => hc k m hm (by rw [hd, e])
      exact (List.mem_erase_of_ne hne).mpr hg

/-- Every step of the history is careful. -/
def AllCareful : BufState → List BufOp → Prop
  | _, [] => True
  | s, op :: ops => op.Careful s ∧ AllCareful (op.step s).1 ops

theorem BufInv.run : ∀ (ops : List BufOp) {s : BufState}, BufInv s none → AllCareful s ops → BufInv (s.run ops) none
  | [], _, h, _ => h
  | op :: ops, _, h, hc => BufInv.run ops (h.step op hc.1) hc.2

end Implicit
