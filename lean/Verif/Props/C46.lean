import Verif.Lemmas.GpuMatrix
import Mathlib.Data.List.Nodup
import Mathlib.Data.List.Perm.Basic
import Mathlib.Data.Rat.Defs
import Mathlib.Tactic.NormNum

/-!
# C46: device matrices keep their contents

`C46_session_partial`: a session of any length that builds, indexes, slices, converts, grows and assigns device
matrices behaves as if every matrix were a value, provided host arrays are C-contiguous, ids fit in 32 bits and
rows are assigned with one valid, distinct id for each source row to a matrix that shares its storage with no
other.  Nothing is read or written outside the buffers, and the order of execution of the parallel copies does
not matter.  The `_violated` theorems show what happens without these conditions, none of which is checked.
-/

set_option linter.unusedSectionVars false

namespace Implicit

open Spec

variable {R : Type} [Zero R]

/-! ### The statements one by one -/

theorem step_fromHost (toHalf : R → R) {d : Device R} {s : Vals R} (h : DevInv d s) (x : HostArray R)
    (hsafe : Safe s (.fromHost x)) :
    match valStep toHalf s (.fromHost x) with
    | none => ∃ e, devStep toHalf d (.fromHost x) = .error e ∧ e ≠ .undefinedBehaviour
    | some s' => ∃ d', devStep toHalf d (.fromHost x) = .ok d' ∧ DevInv d' s' := by
  obtain ⟨h1, h0, hm, hs⟩ := hsafe
  simp only [valStep, devStep, devFromHost]
  by_cases hi : x.itemsize = 4 ∨ x.itemsize = 2
  · by_cases hz : x.rows ≠ 0 ∧ x.cols ≠ 0
    · rw [if_pos ⟨hi, hz⟩, if_neg (by omega), if_neg (by omega)]
      have hr : (List.range (x.rows * x.cols)).mapM x.read =
          .ok ((List.range (x.rows * x.cols)).map fun i => x.mem.getD (x.start + i) 0) := by
        refine mapM_eq_ok fun i hi => ?_
        have hi' : x.start + i < x.mem.length := by
          have : i < x.rows * x.cols := by simpa using hi
          omega
        unfold HostArray.read
        rw [List.getElem?_eq_getElem hi', List.getD_eq_getElem _ _ hi']
      refine ⟨_, by simp only [bind, Except.bind, hr]; rfl, ?_⟩
      refine h.push (by simp) (by simpa using hs) ?_ ?_
      · intro row hrow
        simp only [List.mem_map] at hrow
        obtain ⟨i, _, rfl⟩ := hrow
        simp
      · intro i hi
        rw [List.length_map, List.length_range] at hi
        obtain ⟨ha, hb, hab⟩ := flat_cases hi
        rw [List.getElem?_map, List.getElem?_range hi, Option.map_some,
          flatAt_eq (by simpa using ha) (by simpa using hb)]
        simp only [List.getElem_map, List.getElem_range, hostElem, h1, h0, Nat.mul_one, Nat.add_assoc, hab]
    · rw [if_neg (by intro hc; exact hz hc.2), if_neg (by omega), if_pos (by omega)]
      exact ⟨_, rfl, by decide⟩
  · rw [if_neg (by intro hc; exact hi hc.1), if_pos (by omega)]
    exact ⟨_, rfl, by decide⟩

theorem step_zeros (toHalf : R → R) {d : Device R} {s : Vals R} (h : DevInv d s) (r c : Nat)
    (hsafe : Safe s (.zeros r c)) :
    ∃ d', devStep toHalf d (.zeros r c) = .ok d' ∧
      DevInv d' (s.fresh c 4 (List.replicate r (List.replicate c 0))) := by
  refine ⟨_, rfl, h.push (by simp) (by rw [List.length_replicate]; exact hsafe) ?_ ?_⟩
  · intro row hrow
    rw [List.eq_of_mem_replicate hrow, List.length_replicate]
  · intro i hi
    rw [List.length_replicate] at hi
    obtain ⟨ha, hb, _⟩ := flat_cases hi
    rw [List.getElem?_replicate, if_pos hi, flatAt_eq (by simpa using ha) (by simpa using hb)]
    simp

theorem step_getItem (toHalf : R → R) {d : Device R} {s : Vals R} (h : DevInv d s) (k : Nat) (idx : DevIndex)
    (hsafe : Safe s (.getItem k idx)) :
    match valStep toHalf s (.getItem k idx) with
    | none => ∃ e, devStep toHalf d (.getItem k idx) = .error e ∧ e ≠ .undefinedBehaviour
    | some s' => ∃ d', devStep toHalf d (.getItem k idx) = .ok d' ∧ DevInv d' s' := by
  cases hv : s.vals[k]? with
  | none =>
    simp only [valStep, hv, devStep, h.none hv, bind, Option.bind]
    exact ⟨_, rfl, by decide⟩
  | some v =>
    obtain ⟨m, hm, hsh⟩ := h.get hv
    have hvm := List.mem_of_getElem? hv
    have hgr := h.group v hvm
    have hsm := h.small v hvm
    have hrows := hsh.rows
    simp only [valStep, hv, devStep, hm, bind, Option.bind, devGetItem, selectRows]
    cases idx with
    | slice start stop step =>
      simp only
      rw [hrows]
      by_cases hst : step = none ∨ step = some 0 ∨ step = some 1
      · rw [if_neg (show ¬ (step ≠ none ∧ step ≠ some 0 ∧ step ≠ some 1) by
          rintro ⟨a, b, c⟩; rcases hst with e | e | e
          · exact a e
          · exact b e
          · exact c e)]
        set a := start.getD 0 with ha
        set b := stop.getD (v.rows.length : Int) with hb
        by_cases hok : 0 ≤ a ∧ a ≤ b ∧ b ≤ v.rows.length
        · rw [if_pos ⟨hst, hok⟩, if_neg (by omega)]
          simp only [devSlice]
          rw [if_neg (by omega), if_neg (by omega)]
          refine ⟨_, rfl, ?_⟩
          refine h.view (hsh.window (a := a.toNat) (n := b.toNat - a.toNat) (by omega)) hgr ?_
          simp only [List.length_take, List.length_drop]; omega
        · rw [if_neg (by intro hc; exact hok hc.2)]
          simp only
          by_cases hov : a < 0 ∨ 2 ^ 64 ≤ a ∨ b < 0 ∨ 2 ^ 64 ≤ b
          · rw [if_pos hov]; exact ⟨_, rfl, by decide⟩
          · rw [if_neg hov, devSlice]
            by_cases hlt : b.toNat < a.toNat
            · rw [if_pos hlt]; exact ⟨_, rfl, by decide⟩
            · rw [if_neg hlt, if_pos (by omega)]; exact ⟨_, rfl, by decide⟩
      · rw [if_neg (by intro hc; exact hst hc.1), if_pos (show step ≠ none ∧ step ≠ some 0 ∧ step ≠ some 1 from
          ⟨fun e => hst (.inl e), fun e => hst (.inr (.inl e)), fun e => hst (.inr (.inr e))⟩)]
        exact ⟨_, rfl, by decide⟩
    | int i =>
      simp only
      by_cases hok : 0 ≤ i ∧ i < v.rows.length ∧ i < 2 ^ 31
      · rw [if_pos hok, if_neg (by omega)]
        have hmod : i % 2 ^ 64 = i := by omega
        simp only [devRow, hmod]
        rw [if_neg (by omega)]
        refine ⟨_, rfl, ?_⟩
        have hrow : [v.rows.getD i.toNat []] = (v.rows.drop i.toNat).take 1 := by
          have hlt : i.toNat < v.rows.length := by omega
          rw [List.getD_eq_getElem _ _ hlt, List.drop_eq_getElem_cons hlt]
          rfl
        rw [hrow]
        refine h.view (hsh.window (a := i.toNat) (n := 1) (by omega)) hgr ?_
        simp only [List.length_take, List.length_drop]; omega
      · rw [if_neg hok]
        simp only
        by_cases hov : i < -2 ^ 31 ∨ 2 ^ 31 ≤ i
        · rw [if_pos hov]; exact ⟨_, rfl, by decide⟩
        · rw [if_neg hov, devRow, if_pos (by omega)]; exact ⟨_, rfl, by decide⟩
    | ids l =>
      simp only
      have hl : l.map toInt32 = l := by
        have : ∀ i ∈ l, toInt32 i = i := fun i hi => toInt32_of (hsafe.2 i hi).1 (hsafe.2 i hi).2
        calc l.map toInt32 = l.map id := List.map_congr_left this
          _ = l := List.map_id l
      rw [hl]
      by_cases hr : ∀ i ∈ l, 0 ≤ i ∧ i < (v.rows.length : Int)
      · have hany : (l.any fun i => decide (i < 0 ∨ (m.rows : Int) ≤ i)) = false := by
          rw [List.any_eq_false]
          intro i hi
          have := hr i hi
          simp only [decide_eq_true_eq]; omega
        rw [hany]
        by_cases hne : l = []
        · subst hne
          rw [if_neg (by simp)]
          exact ⟨_, rfl, by decide⟩
        · rw [if_pos ⟨hne, hr⟩, if_neg (by simp), if_neg (by simpa using hne)]
          have hcell : ∀ i < l.length * m.cols,
              d.read m (i % m.cols + (l.getD (i / m.cols) 0).toNat * m.cols) =
                .ok (flatAt (l.map fun i => v.rows.getD i.toNat []) m.cols i) := by
            intro i hi
            obtain ⟨ha, hb, _⟩ := flat_cases hi
            have hid := hr _ (List.getElem_mem ha)
            rw [List.getD_eq_getElem _ _ ha, Nat.add_comm]
            rw [hsh.readOk (flat_lt (by omega) hb), ← hsh.cols, flatAt, flat_div hb, flat_mod hb, flatAt,
              List.getD_eq_getElem (l.map _) _ (by simpa using ha), List.getElem_map]
          have hall := mapM_eq_ok (l := List.range (l.length * m.cols))
            (g := fun i => d.read m (i % m.cols + (l.getD (i / m.cols) 0).toNat * m.cols))
            (fun i hi => hcell i (by simpa using hi))
          refine ⟨_, by simp only [devGather, bind, Except.bind, hall]; rfl, ?_⟩
          rw [← hsh.cols, ← hsh.itemsize]
          refine h.push (by simp) ?_ ?_ ?_
          · rw [List.length_map]
            exact hsafe.1
          · intro row hrow
            simp only [List.mem_map] at hrow
            obtain ⟨i, hi, rfl⟩ := hrow
            have hid := hr i hi
            rw [List.getD_eq_getElem _ _ (by omega), hsh.cols]
            exact hsh.width _ (List.getElem_mem _)
          · intro i hi
            rw [List.length_map] at hi
            rw [List.getElem?_map, List.getElem?_range hi, Option.map_some]
      · have hany : (l.any fun i => decide (i < 0 ∨ (m.rows : Int) ≤ i)) = true := by
          by_contra hc
          apply hr
          intro i hi
          rw [Bool.not_eq_true, List.any_eq_false] at hc
          have := hc i hi
          simp only [decide_eq_true_eq] at this
          omega
        rw [hany, if_neg (by intro hc; exact hr hc.2)]
        exact ⟨_, rfl, by decide⟩
    | other => exact ⟨_, rfl, by decide⟩

theorem step_asType (toHalf : R → R) {d : Device R} {s : Vals R} (h : DevInv d s) (k n : Nat) :
    match valStep toHalf s (.asType k n) with
    | none => ∃ e, devStep toHalf d (.asType k n) = .error e ∧ e ≠ .undefinedBehaviour
    | some s' => ∃ d', devStep toHalf d (.asType k n) = .ok d' ∧ DevInv d' s' := by
  cases hv : s.vals[k]? with
  | none =>
    simp only [valStep, hv, devStep, h.none hv, bind, Option.bind]
    exact ⟨_, rfl, by decide⟩
  | some v =>
    obtain ⟨m, hm, hsh⟩ := h.get hv
    have hvm := List.mem_of_getElem? hv
    simp only [valStep, hv, devStep, hm, bind, Option.bind, devAsType]
    by_cases hn : n = 2 ∨ n = 4
    · by_cases he : n = v.itemsize
      · rw [if_pos ⟨he, hn⟩, if_neg (by omega), if_pos (by rw [hsh.itemsize]; exact he)]
        exact ⟨_, rfl, h.view hsh (h.group v hvm) (h.small v hvm)⟩
      · rw [if_neg (show ¬ (n = v.itemsize ∧ (n = 2 ∨ n = 4)) from fun hc => he hc.1),
          if_neg (show ¬ (n ≠ 2 ∧ n ≠ 4) by omega), if_neg (show ¬ n = m.itemsize by rw [hsh.itemsize]; exact he)]
        simp only [Except.bind, hsh.readAll]
        by_cases h2 : n = 2
        · simp only [if_pos h2]
          refine ⟨_, rfl, ?_⟩
          rw [hsh.cols, h2]
          refine h.push (by rw [List.length_map]; exact hsh.rows) (by rw [List.length_map]; exact h.small v hvm) ?_ ?_
          · intro row hrow
            obtain ⟨row', hr', rfl⟩ := List.mem_map.mp hrow
            rw [List.length_map]; exact hsh.width _ hr'
          · intro i hi
            rw [List.length_map] at hi
            obtain ⟨ha, hb, _⟩ := flat_cases hi
            rw [List.getElem?_map, List.getElem?_map, hsh.rows, List.getElem?_range hi, Option.map_some,
              Option.map_some]
            have hw := hsh.width _ (List.getElem_mem ha)
            simp only [flatAt]
            rw [List.getD_eq_getElem (v.rows.map _) _ (by simpa using ha), List.getD_eq_getElem _ _ ha,
              List.getElem_map, List.getD_eq_getElem (List.map _ _) _ (by rw [List.length_map, hw]; exact hb),
              List.getElem_map, List.getD_eq_getElem _ _ (by rw [hw]; exact hb)]
        · have h4 : n = 4 := by omega
          simp only [if_neg h2, if_pos h4]
          refine ⟨_, rfl, ?_⟩
          rw [hsh.cols, h4]
          refine h.push hsh.rows (h.small v hvm) hsh.width ?_
          intro i hi
          rw [List.getElem?_map, hsh.rows, List.getElem?_range hi, Option.map_some]
    · rw [if_neg (show ¬ (n = v.itemsize ∧ (n = 2 ∨ n = 4)) from fun hc => hn hc.2), if_neg (show ¬ n = 2 by omega),
        if_neg (show ¬ n = 4 by omega), if_pos (show n ≠ 2 ∧ n ≠ 4 by omega)]
      exact ⟨_, rfl, by decide⟩

theorem assign_fold {m other : DevMatrix} {w : Val R} {ids : List Int} (hne : other.buf ≠ m.buf)
    (order : List Nat) : ∀ d : Device R, Shows d other w → m.buf < d.heap.length →
      (∀ i ∈ order, i < other.rows * other.cols) → ids.length = other.rows → (∀ i ∈ ids, 0 ≤ i) →
      (∀ i ∈ order, m.off + i % other.cols + (ids.getD (i / other.cols) 0).toNat * other.cols <
        (d.heap.getD m.buf []).length) →
      ∃ b, order.foldlM (devAssignStep m other ids) d = .ok { d with heap := d.heap.set m.buf b } ∧
        writeAll (d.heap.getD m.buf []) (order.map fun i =>
          (m.off + i % other.cols + (ids.getD (i / other.cols) 0).toNat * other.cols,
            flatAt w.rows w.cols i)) = .ok b := by
  induction order with
  | nil =>
    intro d _ hb _ _ _ _
    refine ⟨d.heap.getD m.buf [], ?_, rfl⟩
    rw [List.foldlM_nil, List.getD_eq_getElem _ _ hb, List.set_getElem_self]
    rfl
  | cons i order ih =>
    intro d hw hb ho hl hpos hbd
    obtain ⟨ha, hb', hab⟩ := flat_cases (ho i List.mem_cons_self)
    have hid : i / other.cols < ids.length := by rw [hl]; exact ha
    have h0 := hpos _ (List.getElem_mem hid)
    set addr := m.off + i % other.cols + (ids.getD (i / other.cols) 0).toNat * other.cols with haddr
    have hlt := hbd i List.mem_cons_self
    have hint : ((m.off : Int) + ((i % other.cols : Nat) : Int) + ids[i / other.cols] * other.cols) = (addr : Int) := by
      rw [haddr, List.getD_eq_getElem _ _ hid]
      push_cast
      rw [Int.toNat_of_nonneg h0]
    have hstep : devAssignStep m other ids d i =
        .ok { d with heap := d.heap.set m.buf ((d.heap.getD m.buf []).set addr (flatAt w.rows w.cols i)) } := by
      simp only [devAssignStep, List.getElem?_eq_getElem hid, hw.readOk (ho i List.mem_cons_self), bind, Except.bind,
        hint]
      rw [if_neg (by omega)]
      simp only [writeCell, Int.toNat_natCast]
      rw [if_pos hlt]
    set d' : Device R := { d with heap := d.heap.set m.buf ((d.heap.getD m.buf []).set addr (flatAt w.rows w.cols i)) }
      with hd'
    have hget : d'.heap.getD m.buf [] = (d.heap.getD m.buf []).set addr (flatAt w.rows w.cols i) := by
      simp only [hd', List.getD_eq_getElem?_getD, List.getElem?_set_self hb, Option.getD_some]
    have hw' : Shows d' other w := by
      refine ⟨hw.group, hw.cols, hw.itemsize, hw.rows, hw.width, ?_⟩
      intro r row hr c hc
      rw [hw.cells r row hr c hc]
      simp only [hd', List.getD_eq_getElem?_getD, List.getElem?_set_ne (Ne.symm hne)]
    obtain ⟨b, e1, e2⟩ := ih d' hw' (by simpa [hd'] using hb) (fun j hj => ho j (List.mem_cons_of_mem _ hj)) hl hpos
      (by intro j hj; rw [hget, List.length_set]; exact hbd j (List.mem_cons_of_mem _ hj))
    refine ⟨b, ?_, ?_⟩
    · rw [List.foldlM_cons, hstep]
      simp only [bind, Except.bind, e1]
      simp only [hd', List.set_set]
    · rw [List.map_cons, writeAll_cons]
      simp only [writeCell]
      rw [if_pos hlt]
      rw [hget] at e2
      exact e2

theorem step_assign (toHalf : R → R) {d : Device R} {s : Vals R} (h : DevInv d s) (order : List Nat) (k o : Nat)
    (ids : List Int) (hsafe : Safe s (.assignRows order k o ids)) :
    match valStep toHalf s (.assignRows order k o ids) with
    | none => ∃ e, devStep toHalf d (.assignRows order k o ids) = .error e ∧ e ≠ .undefinedBehaviour
    | some s' => ∃ d', devStep toHalf d (.assignRows order k o ids) = .ok d' ∧ DevInv d' s' := by
  cases hv : s.vals[k]? with
  | none =>
    simp only [valStep, hv, devStep, h.none hv, bind, Option.bind]
    exact ⟨_, rfl, by decide⟩
  | some v =>
    cases hw : s.vals[o]? with
    | none =>
      simp only [valStep, hv, hw, devStep, h.none hw, bind, Option.bind]
      cases d.mats[k]? <;> exact ⟨_, rfl, by decide⟩
    | some w =>
      obtain ⟨m, hm, hsm⟩ := h.get hv
      obtain ⟨m', hm', hsw⟩ := h.get hw
      simp only [valStep, hv, hw, devStep, hm, hm', bind, Option.bind, devAssignRows]
      by_cases hc : ids ≠ [] ∧ v.cols = w.cols ∧ v.itemsize = 4 ∧ w.itemsize = 4
      · obtain ⟨c1, c2, c3, c4⟩ := hc
        obtain ⟨hok, hperm, hlen, hnd, hrange, hshare⟩ := hsafe v w hv hw c1 c2 c3 c4
        rw [if_pos ⟨c1, c2, c3, c4⟩, if_neg (by simpa using c1),
          if_neg (show ¬ m'.cols ≠ m.cols by rw [hsm.cols, hsw.cols, c2]; simp),
          if_neg (show ¬ (m'.itemsize ≠ 4 ∨ m.itemsize ≠ 4) by rw [hsm.itemsize, hsw.itemsize, c3, c4]; simp)]
        have hids : ids.map toInt32 = ids := by
          have : ∀ i ∈ ids, toInt32 i = i := fun i hi => toInt32_of (by have := hrange i hi; omega) (hrange i hi).2.2
          calc ids.map toInt32 = ids.map id := List.map_congr_left this
            _ = ids := List.map_id ids
        rw [hids]
        have hcc : m'.cols = m.cols := by rw [hsm.cols, hsw.cols, c2]
        have hbuf : m'.buf ≠ m.buf := by
          rw [hsm.group, hsw.group]; exact hshare o w hw hok
        have hb : m.buf < d.heap.length := by
          rw [hsm.group, ← h.next]; exact h.group v (List.mem_of_getElem? hv)
        have hmemo : ∀ i, i ∈ order ↔ i < m'.rows * m'.cols := by
          intro i; rw [hperm.mem_iff, List.mem_range, hsw.rows, hsw.cols]
        have haddr : ∀ i ∈ order, ∃ (hi : i / m.cols < ids.length), 
            m.off + i % m'.cols + (ids.getD (i / m'.cols) 0).toNat * m'.cols =
              m.off + ((ids[i / m.cols]'hi).toNat * m.cols + i % m.cols) ∧
            (ids[i / m.cols]'hi).toNat < m.rows ∧ i % m.cols < m.cols := by
          intro i hi
          obtain ⟨ha, hb', hab⟩ := flat_cases ((hmemo i).mp hi)
          rw [hcc] at ha hb'
          have hlt : i / m.cols < ids.length := by rw [hlen, ← hsw.rows]; exact ha
          have := hrange _ (List.getElem_mem hlt)
          refine ⟨hlt, ?_, by rw [hsm.rows]; omega, hb'⟩
          rw [hcc, List.getD_eq_getElem _ _ hlt]; omega
        have hin : ∀ j < m.rows * m.cols, m.off + j < (d.heap.getD m.buf []).length := by
          intro j hj
          exact (List.getElem?_eq_some_iff.mp (hsm.read hj)).1
        obtain ⟨b, e1, e2⟩ := assign_fold (w := w) (ids := ids) hbuf order d hsw hb (fun i hi => (hmemo i).mp hi)
          (by rw [hlen, hsw.rows]) (fun i hi => (hrange i hi).1) (by
            intro i hi
            obtain ⟨hlt, ea, h1, h2⟩ := haddr i hi
            rw [ea]; exact hin _ (flat_lt h1 h2))
        refine ⟨_, e1, ?_⟩
        -- the cells of the target
        have hnodup : ((order.map fun i => (m.off + i % m'.cols + (ids.getD (i / m'.cols) 0).toNat * m'.cols,
            flatAt w.rows w.cols i)).map Prod.fst).Nodup := by
          rw [List.map_map]
          refine (List.nodup_map_iff_inj_on (hperm.nodup_iff.mpr List.nodup_range)).mpr ?_
          intro i hi j hj e
          obtain ⟨li, ei, i1, i2⟩ := haddr i hi
          obtain ⟨lj, ej, j1, j2⟩ := haddr j hj
          simp only [Function.comp] at e
          rw [ei, ej] at e
          have e' := Nat.add_left_cancel e
          have ed : (ids[i / m.cols]).toNat = (ids[j / m.cols]).toNat := by
            rw [← flat_div (r := (ids[i / m.cols]).toNat) i2, e', flat_div j2]
          have em : i % m.cols = j % m.cols := by
            rw [← flat_mod (r := (ids[i / m.cols]).toNat) i2, e', flat_mod j2]
          have hi0 := (hrange _ (List.getElem_mem li)).1
          have hj0 := (hrange _ (List.getElem_mem lj)).1
          have eid : ids[i / m.cols] = ids[j / m.cols] := by omega
          have eq := (List.Nodup.getElem_inj_iff hnd).mp eid
          rw [← Nat.div_add_mod' i m.cols, ← Nat.div_add_mod' j m.cols, eq, em]
        have hget := writeAll_get e2 hnodup
        have hframe := writeAll_frame e2
        have hcells : ∀ (r : Nat) (row : List R), (v.rows.mapIdx (assigned ids w.rows))[r]? = some row →
            row.length = v.cols ∧ ∀ c < v.cols, row[c]? = b[m.off + r * m.cols + c]? := by
          intro r row hr
          rw [List.getElem?_mapIdx] at hr
          obtain ⟨old, hold, rfl⟩ := Option.map_eq_some_iff.mp hr
          have hrlt : r < m.rows := by rw [hsm.rows]; exact (List.getElem?_eq_some_iff.mp hold).1
          have holdw := hsm.width old (List.mem_of_getElem? hold)
          unfold assigned
          cases hf : ids.findIdx? (· == (r : Int)) with
          | none =>
            refine ⟨holdw, ?_⟩
            intro c hcl
            rw [hsm.cells r old hold c hcl]
            refine (hframe _ ?_).symm
            rw [List.map_map]
            intro hmem
            obtain ⟨i, hi, e⟩ := List.mem_map.mp hmem
            obtain ⟨li, ei, i1, i2⟩ := haddr i hi
            simp only [Function.comp] at e
            rw [ei, Nat.add_assoc] at e
            have e' := Nat.add_left_cancel e
            have hcl' : c < m.cols := by rw [hsm.cols]; exact hcl
            have ed : (ids[i / m.cols]).toNat = r := by
              rw [← flat_div (r := (ids[i / m.cols]).toNat) i2, e', flat_div hcl']
            have hi0 := (hrange _ (List.getElem_mem li)).1
            rw [List.findIdx?_eq_none_iff] at hf
            have := hf _ (List.getElem_mem li)
            simp only [beq_eq_false_iff_ne, ne_eq] at this
            omega
          | some j =>
            rw [List.findIdx?_eq_some_iff_getElem] at hf
            obtain ⟨hj, hje, _⟩ := hf
            have hje' : ids[j] = (r : Int) := by simpa using hje
            have hjw : j < w.rows.length := by rw [← hlen]; exact hj
            have hww := hsw.width _ (List.getElem_mem hjw)
            simp only [List.getD_eq_getElem _ _ hjw]
            refine ⟨by rw [hww, c2], ?_⟩
            intro c hcl
            have hcl' : c < m.cols := by rw [hsm.cols]; exact hcl
            have hi : j * m.cols + c ∈ order := by
              rw [hmemo, hcc]
              exact flat_lt (by rw [hsw.rows]; exact hjw) hcl'
            have := hget _ (List.mem_map_of_mem hi)
            simp only [hcc, flat_div hcl', flat_mod hcl', List.getD_eq_getElem _ _ hj, hje', Int.toNat_natCast] at this
            rw [show m.off + r * m.cols + c = m.off + c + r * m.cols by omega, this]
            have hcw : c < w.cols := by rw [← c2]; exact hcl
            have hcols : m.cols = w.cols := by rw [hsm.cols, c2]
            rw [hcols, flatAt, flat_div hcw, flat_mod hcw, List.getD_eq_getElem w.rows _ hjw,
              List.getD_eq_getElem _ _ (by rw [hww]; exact hcw), List.getElem?_eq_getElem]
        refine ⟨⟨by simpa using h.holds.1, ?_⟩, by simpa using h.next, ?_, ?_⟩
        · intro k' m2 v2 hm2 hv2
          dsimp only at hm2 hv2
          by_cases hkk : k' = k
          · subst hkk
            have e : m2 = m := by rw [hm] at hm2; exact (Option.some.inj hm2).symm
            subst e
            rw [List.getElem?_set_self (List.getElem?_eq_some_iff.mp hv).1] at hv2
            cases hv2
            refine ⟨hsm.group, hsm.cols, hsm.itemsize, by simpa using hsm.rows, ?_, ?_⟩
            · intro row hrow
              obtain ⟨r, hr⟩ := List.getElem?_of_mem hrow
              exact (hcells r row hr).1
            · intro r row hr c hcl
              rw [(hcells r row hr).2 c hcl]
              simp only [List.getD_eq_getElem?_getD, List.getElem?_set_self hb, Option.getD_some]
          · rw [List.getElem?_set_ne (Ne.symm hkk)] at hv2
            have h2 := h.holds.2 k' m2 v2 hm2 hv2
            have hbn : m2.buf ≠ m.buf := by
              rw [h2.group, hsm.group]; exact hshare k' v2 hv2 hkk
            refine ⟨h2.group, h2.cols, h2.itemsize, h2.rows, h2.width, ?_⟩
            intro r row hr c hcl
            rw [h2.cells r row hr c hcl]
            simp only [List.getD_eq_getElem?_getD, List.getElem?_set_ne (Ne.symm hbn)]
        · intro u hu
          rcases List.mem_or_eq_of_mem_set hu with hu | rfl
          · exact h.group u hu
          · exact h.group v (List.mem_of_getElem? hv)
        · intro u hu
          rcases List.mem_or_eq_of_mem_set hu with hu | rfl
          · exact h.small u hu
          · simpa using h.small v (List.mem_of_getElem? hv)
      · rw [if_neg hc]
        simp only
        by_cases c1 : ids = []
        · subst c1; exact ⟨_, rfl, by decide⟩
        · rw [if_neg (by simpa using c1)]
          by_cases c2 : m'.cols ≠ m.cols
          · rw [if_pos c2]; exact ⟨_, rfl, by decide⟩
          · rw [if_neg c2, if_pos]
            · exact ⟨_, rfl, by decide⟩
            · rw [hsm.itemsize, hsw.itemsize]
              rw [hsm.cols, hsw.cols] at c2
              by_contra h3
              exact hc ⟨c1, by omega, by omega, by omega⟩

theorem step_resize (toHalf : R → R) {d : Device R} {s : Vals R} (h : DevInv d s) (k : Nat) (r c : Int)
    (hsafe : Safe s (.resize k r c)) :
    match valStep toHalf s (.resize k r c) with
    | none => ∃ e, devStep toHalf d (.resize k r c) = .error e ∧ e ≠ .undefinedBehaviour
    | some s' => ∃ d', devStep toHalf d (.resize k r c) = .ok d' ∧ DevInv d' s' := by
  have hr63 : r < 2 ^ 63 := hsafe
  cases hv : s.vals[k]? with
  | none =>
    simp only [valStep, hv, devStep, h.none hv, bind, Option.bind]
    exact ⟨_, rfl, by decide⟩
  | some v =>
    obtain ⟨m, hm, hsh⟩ := h.get hv
    have hvm := List.mem_of_getElem? hv
    have hrows := hsh.rows
    have hcols := hsh.cols
    simp only [valStep, hv, devStep, hm, bind, Option.bind, devResize]
    by_cases hok : c = v.cols ∧ (v.rows.length : Int) ≤ r ∧ v.cols < 2 ^ 64
    · rw [if_pos hok, if_neg (show ¬ (r < 0 ∨ 2 ^ 64 ≤ r ∨ c < 0 ∨ 2 ^ 64 ≤ c) by omega),
        if_neg (show ¬ c.toNat ≠ m.cols by omega), if_neg (show ¬ r.toNat < m.rows by omega)]
      simp only [Except.bind, hsh.readAll]
      refine ⟨_, rfl, ?_⟩
      set rows' := v.rows ++ List.replicate (r.toNat - v.rows.length) (List.replicate v.cols (0 : R)) with hrows'
      have hl' : rows'.length = r.toNat := by
        rw [hrows', List.length_append, List.length_replicate]; omega
      have hfresh : Shows ⟨d.heap ++ [(List.range (m.rows * m.cols)).map (flatAt v.rows v.cols) ++
            List.replicate ((r.toNat - m.rows) * m.cols) 0],
            d.mats.set k ⟨r.toNat, m.cols, d.heap.length, 0, m.itemsize⟩⟩
          ⟨r.toNat, m.cols, d.heap.length, 0, m.itemsize⟩ ⟨d.heap.length, m.cols, m.itemsize, rows'⟩ := by
        refine shows_fresh hl'.symm ?_ ?_
        · intro row hrow
          rw [hrows', List.mem_append] at hrow
          rcases hrow with hrow | hrow
          · rw [hcols]; exact hsh.width row hrow
          · rw [List.eq_of_mem_replicate hrow, List.length_replicate, hcols]
        · intro i hi
          rw [hl'] at hi
          obtain ⟨ha, hb, hab⟩ := flat_cases hi
          by_cases hlt : i < m.rows * m.cols
          · obtain ⟨ha', _, _⟩ := flat_cases hlt
            rw [List.getElem?_append_left (by simpa using hlt), List.getElem?_map, List.getElem?_range hlt,
              Option.map_some, flatAt, flatAt, ← hcols, hrows', List.getD_append _ _ _ _ (by rw [← hrows]; exact ha')]
          · have hge : m.rows ≤ i / m.cols := by
              have hc0 : 0 < m.cols := by omega
              exact (Nat.le_div_iff_mul_le hc0).mpr (by omega)
            have hsub : i - m.rows * m.cols < (r.toNat - m.rows) * m.cols := by
              rw [Nat.sub_mul]; omega
            rw [List.getElem?_append_right (by simpa using hlt), List.length_map, List.length_range,
              List.getElem?_replicate, if_pos hsub, flatAt, hrows',
              List.getD_append_right _ _ _ _ (by rw [← hrows]; exact hge)]
            rw [List.getD_eq_getElem (List.replicate _ _) _ (by rw [List.length_replicate]; omega),
              List.getElem_replicate, List.getD_eq_getElem _ _ (by rw [List.length_replicate, ← hcols]; exact hb),
              List.getElem_replicate]
      have hk : k < d.mats.length := (List.getElem?_eq_some_iff.mp hm).1
      have hk' : k < s.vals.length := (List.getElem?_eq_some_iff.mp hv).1
      refine ⟨⟨by simpa using h.holds.1, ?_⟩, by simp [h.next], ?_, ?_⟩
      · intro k' m2 v2 hm2 hv2
        dsimp only at hm2 hv2
        by_cases hkk : k' = k
        · subst hkk
          rw [List.getElem?_set_self hk] at hm2
          rw [List.getElem?_set_self hk'] at hv2
          cases hm2; cases hv2
          have e : (⟨s.next, v.cols, v.itemsize, rows'⟩ : Val R) = ⟨d.heap.length, m.cols, m.itemsize, rows'⟩ := by
            rw [h.next, hsh.cols, hsh.itemsize]
          rw [e]
          exact hfresh
        · rw [List.getElem?_set_ne (Ne.symm hkk)] at hm2 hv2
          have h2 := h.holds.2 k' m2 v2 hm2 hv2
          exact shows_grow (mats := d.mats) (by
            rw [h2.group, ← h.next]; exact h.group v2 (List.mem_of_getElem? hv2)) h2
      · intro u hu
        rcases List.mem_or_eq_of_mem_set hu with hu | rfl
        · exact Nat.lt_succ_of_lt (h.group u hu)
        · exact Nat.lt_succ_self _
      · intro u hu
        rcases List.mem_or_eq_of_mem_set hu with hu | rfl
        · exact h.small u hu
        · dsimp only; rw [hl']; omega
    · rw [if_neg hok]
      simp only
      by_cases h1 : r < 0 ∨ 2 ^ 64 ≤ r ∨ c < 0 ∨ 2 ^ 64 ≤ c
      · rw [if_pos h1]; exact ⟨_, rfl, by decide⟩
      · rw [if_neg h1]
        by_cases h2 : c.toNat ≠ m.cols
        · rw [if_pos h2]; exact ⟨_, rfl, by decide⟩
        · rw [if_neg h2, if_pos (by omega)]; exact ⟨_, rfl, by decide⟩

/-! ### Sessions -/

theorem C46_step (toHalf : R → R) {d : Device R} {s : Vals R} (h : DevInv d s) (op : DevOp R) (hsafe : Safe s op) :
    match valStep toHalf s op with
    | none => ∃ e, devStep toHalf d op = .error e ∧ e ≠ .undefinedBehaviour
    | some s' => ∃ d', devStep toHalf d op = .ok d' ∧ DevInv d' s' := by
  cases op with
  | fromHost x => exact step_fromHost toHalf h x hsafe
  | zeros r c => exact step_zeros toHalf h r c hsafe
  | getItem k idx => exact step_getItem toHalf h k idx hsafe
  | assignRows order k o ids => exact step_assign toHalf h order k o ids hsafe
  | asType k n => exact step_asType toHalf h k n
  | resize k r c => exact step_resize toHalf h k r c hsafe

theorem run_inv (toHalf : R → R) : ∀ (ops : List (DevOp R)) (d : Device R) (s : Vals R), DevInv d s → SafeRun toHalf s ops →
      ∃ d', devRun toHalf d ops = .ok d' ∧ DevInv d' (valRun toHalf s ops) := by
  intro ops
  induction ops with
  | nil => intro d s h _; exact ⟨d, rfl, h⟩
  | cons op ops ih =>
    intro d s h hs
    have hstep := C46_step toHalf h op hs.1
    cases hv : valStep toHalf s op with
    | none =>
      rw [hv] at hstep
      obtain ⟨e, he, hub⟩ := hstep
      have hs2 := hs.2
      rw [hv, Option.getD_none] at hs2
      obtain ⟨d', e1, e2⟩ := ih d s h hs2
      refine ⟨d', ?_, ?_⟩
      · unfold devRun
        rw [he]
        cases e <;> first | exact e1 | exact absurd rfl hub
      · simp only [valRun, List.foldl_cons, hv, Option.getD_none] at e2 ⊢
        exact e2
    | some s' =>
      rw [hv] at hstep
      obtain ⟨d1, he, hinv⟩ := hstep
      have hs2 := hs.2
      rw [hv, Option.getD_some] at hs2
      obtain ⟨d', e1, e2⟩ := ih d1 s' hinv hs2
      refine ⟨d', ?_, ?_⟩
      · unfold devRun
        rw [he]
        exact e1
      · simp only [valRun, List.foldl_cons, hv, Option.getD_some] at e2 ⊢
        exact e2

/-- Every session of safe statements runs without undefined behaviour, raises exactly where the specification
raises, and leaves on the device exactly the values of the specification. -/
theorem C46_session_partial (toHalf : R → R) (ops : List (DevOp R)) (hsafe : SafeRun toHalf ⟨0, []⟩ ops) :
    ∃ d, devRun toHalf ⟨[], []⟩ ops = .ok d ∧ Holds d (valRun toHalf ⟨0, []⟩ ops) := by
  obtain ⟨d, e, h⟩ := run_inv toHalf ops ⟨[], []⟩ ⟨0, []⟩
    ⟨⟨rfl, by intro k m v hm; simp at hm⟩, rfl, by intro v hv; simp at hv, by intro v hv; simp at hv⟩ hsafe
  exact ⟨d, e, h.holds⟩

theorem safeRun_append (toHalf : R → R) (a b : List (DevOp R)) (s : Vals R) (h : SafeRun toHalf s (a ++ b)) :
    SafeRun toHalf s a ∧ SafeRun toHalf (valRun toHalf s a) b := by
  induction a generalizing s with
  | nil => exact ⟨trivial, h⟩
  | cons op a ih =>
    obtain ⟨h1, h2⟩ := ih _ h.2
    exact ⟨⟨h.1, h1⟩, h2⟩

/-- No statement of such a session has undefined behaviour, and none is skipped because of an earlier one. -/
theorem C46_defined_partial (toHalf : R → R) (pre post : List (DevOp R)) (op : DevOp R)
    (hsafe : SafeRun toHalf ⟨0, []⟩ (pre ++ op :: post)) :
    ∃ d, devRun toHalf ⟨[], []⟩ pre = .ok d ∧ devStep toHalf d op ≠ .error .undefinedBehaviour := by
  obtain ⟨h1, h2⟩ := safeRun_append toHalf pre (op :: post) _ hsafe
  obtain ⟨d, e, h⟩ := run_inv toHalf pre ⟨[], []⟩ ⟨0, []⟩
    ⟨⟨rfl, by intro k m v hm; simp at hm⟩, rfl, by intro v hv; simp at hv, by intro v hv; simp at hv⟩ h1
  refine ⟨d, e, ?_⟩
  have := C46_step toHalf h op h2.1
  intro hub
  split at this
  · obtain ⟨e, he, hne⟩ := this
    rw [hub] at he
    exact hne (Except.error.inj he).symm
  · obtain ⟨d', he, _⟩ := this
    rw [hub] at he
    cases he

/-- Undefined behaviour ends a session: nothing is claimed about the state after it. -/
theorem C46_undefined (toHalf : R → R) (pre post : List (DevOp R)) (op : DevOp R) {d : Device R}
    (hpre : devRun toHalf ⟨[], []⟩ pre = .ok d) (hub : devStep toHalf d op = .error .undefinedBehaviour) :
    devRun toHalf ⟨[], []⟩ (pre ++ op :: post) = .error .undefinedBehaviour := by
  have key : ∀ (pre : List (DevOp R)) (d₀ : Device R), devRun toHalf d₀ pre = .ok d →
      devRun toHalf d₀ (pre ++ op :: post) = .error .undefinedBehaviour := by
    intro pre
    induction pre with
    | nil =>
      intro d₀ h
      cases h
      rw [List.nil_append]
      unfold devRun
      rw [hub]
    | cons o pre ih =>
      intro d₀ h
      rw [List.cons_append]
      unfold devRun at h ⊢
      cases ho : devStep toHalf d₀ o with
      | ok d1 => rw [ho] at h; exact ih d1 h
      | error e => rw [ho] at h; cases e <;> first | exact ih d₀ h | cases h
  exact key pre _ hpre

/-- Reading a matrix back yields its value, element by element, without touching memory outside the buffer. -/
theorem C46_read {d : Device R} {s : Vals R} (h : Holds d s) {k : Nat} {m : DevMatrix} {v : Val R}
    (hm : d.mats[k]? = some m) (hv : s.vals[k]? = some v) (hr : v.rows ≠ []) (hc : v.cols ≠ 0) :
    ∃ l, devToNumpy m d = .ok l ∧ l.length = v.rows.length * v.cols ∧
      ∀ (r c : Nat) (row : List R), v.rows[r]? = some row → c < v.cols → l[r * v.cols + c]? = row[c]? := by
  have hsh := h.2 k m v hm hv
  refine ⟨(List.range (m.rows * m.cols)).map (flatAt v.rows v.cols), ?_, ?_, ?_⟩
  · unfold devToNumpy
    rw [if_neg, hsh.readAll]
    rw [hsh.rows, hsh.cols]
    rintro (h0 | h0)
    · exact hr (List.length_eq_zero_iff.mp h0)
    · exact hc h0
  · rw [List.length_map, List.length_range, hsh.rows, hsh.cols]
  · intro r c row hrow hcl
    obtain ⟨hlt, rfl⟩ := List.getElem?_eq_some_iff.mp hrow
    have hw := hsh.width _ (List.getElem_mem hlt)
    have hi : r * v.cols + c < m.rows * m.cols := by rw [hsh.rows, hsh.cols]; exact flat_lt hlt hcl
    rw [List.getElem?_map, List.getElem?_range hi, Option.map_some, flatAt, flat_div hcl, flat_mod hcl,
      List.getD_eq_getElem v.rows _ hlt, List.getD_eq_getElem _ _ (by rw [hw]; exact hcl), List.getElem?_eq_getElem]

/-! ### A concrete session -/

def sessionTest : List (DevOp Rat) :=
  [.fromHost ⟨2, 2, 4, [1, 2, 3, 4], 0, 2, 1⟩,   -- 0: [[1, 2], [3, 4]]
   .resize 0 4 2,                                 -- 0: [[1, 2], [3, 4], [0, 0], [0, 0]]
   .fromHost ⟨2, 2, 4, [5, 6, 7, 8], 0, 2, 1⟩,   -- 1: [[5, 6], [7, 8]]
   .assignRows [3, 0, 2, 1] 0 1 [3, 0],           -- 0: [[7, 8], [3, 4], [0, 0], [5, 6]]
   .getItem 0 (.slice (some 1) none none),        -- 2: [[3, 4], [0, 0], [5, 6]]
   .getItem 0 (.int (-1)),                        -- raises
   .getItem 0 (.ids [3, 3]),                      -- 3: [[5, 6], [5, 6]]
   .resize 0 3 2]                                 -- raises

example : (valRun (id : Rat → Rat) ⟨0, []⟩ sessionTest).vals.map (·.rows) =
    [[[7, 8], [3, 4], [0, 0], [5, 6]], [[5, 6], [7, 8]], [[3, 4], [0, 0], [5, 6]], [[5, 6], [5, 6]]] := by
  decide +kernel

example : ((devRun (id : Rat → Rat) ⟨[], []⟩ sessionTest).toOption.map fun d =>
    d.mats.map fun m => (devToNumpy m d).toOption) =
    some [some [7, 8, 3, 4, 0, 0, 5, 6], some [5, 6, 7, 8], some [3, 4, 0, 0, 5, 6], some [5, 6, 5, 6]] := by
  decide +kernel

example : SafeRun (id : Rat → Rat) ⟨0, []⟩ sessionTest := by
  refine ⟨⟨rfl, rfl, by decide, by decide⟩, ?_, ⟨rfl, rfl, by decide, by decide⟩, ?_, trivial, trivial, ?_, ?_, trivial⟩
  · show (4 : Int) < 2 ^ 63; decide
  · intro v w hv hw _ _ _ _
    simp only [valStep, Vals.fresh, bind, Option.bind] at hv hw
    refine ⟨by decide, ?_, ?_, by decide, ?_, ?_⟩
    · have e : w.rows.length * w.cols = 4 := by
        cases hw; rfl
      rw [e]; decide
    · cases hw; rfl
    · cases hv; decide
    · cases hv
      intro j u hu hj
      rcases j with _ | _ | j
      · exact absurd rfl hj
      · cases hu; decide
      · have h2 : j + 1 + 1 < 2 := (List.getElem?_eq_some_iff.mp hu).1
        omega
  · exact ⟨by decide, by decide⟩
  · show (3 : Int) < 2 ^ 63; decide

/-! ### Without the conditions -/

/-- A transposed (or otherwise strided) numpy array is copied in memory order: the device matrix differs from
the array. -/
theorem C46_construct_violated :
    ∃ (x : HostArray Rat) (d : Device Rat), devFromHost x ⟨[], []⟩ = .ok d ∧
      (∀ i < x.rows, ∀ j < x.cols, x.start + i * x.stride0 + j * x.stride1 < x.mem.length) ∧
      hostElem x 0 1 = 3 ∧ (d.mats.map fun m => (devToNumpy m d).toOption) = [some [1, 2, 3, 4]] := by
  refine ⟨⟨2, 2, 4, [1, 2, 3, 4], 0, 1, 2⟩, ⟨[[1, 2, 3, 4]], [⟨2, 2, 0, 0, 4⟩]⟩, ?_, by decide, by decide +kernel,
    by decide +kernel⟩
  rfl

/-- Ids are reduced modulo `2 ^ 32` before the range check: an id far out of range selects a row instead of
raising. -/
theorem C46_ids_violated (m : DevMatrix) (d : Device R) (i : Int) (h0 : 0 ≤ i) (h1 : i < m.rows)
    (h2 : i < 2 ^ 31) (hr : m.rows < 2 ^ 32) :
    devGetItem m (.ids [i + 2 ^ 32]) d = devGetItem m (.ids [i]) d ∧ (m.rows : Int) ≤ i + 2 ^ 32 := by
  have : toInt32 (i + 2 ^ 32) = toInt32 i := by unfold toInt32; omega
  refine ⟨?_, by omega⟩
  simp only [devGetItem, List.map_cons, List.map_nil, this]

example : (devGetItem ⟨2, 1, 0, 0, 4⟩ (.ids [1]) (⟨[[5, 6]], []⟩ : Device Rat)).toOption.map (·.heap) =
    some [[5, 6], [6]] := by decide +kernel

/-- Row assignment does not check the ids: beyond the last row it stores outside the buffer ... -/
theorem C46_assign_range_violated (d : Device R) (m other : DevMatrix) (v : R)
    (hm : m.cols = 1) (ho : other.cols = 1) (hor : other.rows = 1) (hi : m.itemsize = 4) (hi' : other.itemsize = 4)
    (hread : d.read other 0 = .ok v) (hlen : (d.heap.getD m.buf []).length = m.off + m.rows)
    (hr : m.rows < 2 ^ 31) :
    devAssignRows [0] m other [(m.rows : Int)] d = .error .undefinedBehaviour := by
  have ht : toInt32 (m.rows : Int) = m.rows := toInt32_of (by omega) (by omega)
  simp only [devAssignRows, hm, ho, hi, hi', List.isEmpty_cons, List.map_cons, List.map_nil, ht, List.foldlM_cons,
    devAssignStep, Nat.zero_div, List.getElem?_cons_zero, hread, bind, Except.bind]
  simp only [Nat.zero_mod, writeCell, hlen]
  have e : ((m.off : Int) + ((0 : Nat) : Int) + (m.rows : Int) * ((1 : Nat) : Int)).toNat = m.off + m.rows := by omega
  have e' : ¬ ((m.off : Int) + ((0 : Nat) : Int) + (m.rows : Int) * ((1 : Nat) : Int)) < 0 := by omega
  simp only [e, e', Nat.lt_irrefl, if_false, Bool.false_eq_true, ne_eq, not_true_eq_false, or_self]

/-- ... in a slice it overwrites the rows of the parent after the slice (and, with a negative id, before it). -/
theorem C46_assign_slice_violated :
    ∃ (d d' : Device Rat) (parent slice src : DevMatrix),
      d.mats = [parent, slice, src] ∧ slice.rows = 1 ∧
      devAssignRows [0] slice src [-1] d = .ok d' ∧
      devToNumpy parent d = .ok [1, 2, 3] ∧ devToNumpy parent d' = .ok [9, 2, 3] ∧
      devToNumpy slice d = .ok [2] ∧ devToNumpy slice d' = .ok [2] := by
  refine ⟨⟨[[1, 2, 3], [9]], [⟨3, 1, 0, 0, 4⟩, ⟨1, 1, 0, 1, 4⟩, ⟨1, 1, 1, 0, 4⟩]⟩,
    ⟨[[9, 2, 3], [9]], [⟨3, 1, 0, 0, 4⟩, ⟨1, 1, 0, 1, 4⟩, ⟨1, 1, 1, 0, 4⟩]⟩, ⟨3, 1, 0, 0, 4⟩, ⟨1, 1, 0, 1, 4⟩,
    ⟨1, 1, 1, 0, 4⟩, rfl, rfl, rfl, rfl, rfl, rfl, rfl⟩

/-- Fewer ids than source rows: the copy reads beyond the ids. -/
theorem C46_assign_length_violated :
    ∃ (d : Device Rat) (m src : DevMatrix), d.mats = [m, src] ∧ src.rows = 2 ∧
      devAssignRows [0, 1] m src [0] d = .error .undefinedBehaviour :=
  ⟨⟨[[1, 2], [8, 9]], [⟨2, 1, 0, 0, 4⟩, ⟨2, 1, 1, 0, 4⟩]⟩, ⟨2, 1, 0, 0, 4⟩, ⟨2, 1, 1, 0, 4⟩, rfl, rfl, rfl⟩

/-- An id listed twice: the result depends on the order in which the device executes the copies. -/
theorem C46_assign_duplicate_violated :
    ∃ (d d1 d2 : Device Rat) (m src : DevMatrix), d.mats = [m, src] ∧
      devAssignRows [0, 1] m src [0, 0] d = .ok d1 ∧ devAssignRows [1, 0] m src [0, 0] d = .ok d2 ∧
      devToNumpy m d1 = .ok [9, 2] ∧ devToNumpy m d2 = .ok [8, 2] :=
  ⟨⟨[[1, 2], [8, 9]], [⟨2, 1, 0, 0, 4⟩, ⟨2, 1, 1, 0, 4⟩]⟩, ⟨[[9, 2], [8, 9]], [⟨2, 1, 0, 0, 4⟩, ⟨2, 1, 1, 0, 4⟩]⟩,
    ⟨[[8, 2], [8, 9]], [⟨2, 1, 0, 0, 4⟩, ⟨2, 1, 1, 0, 4⟩]⟩, ⟨2, 1, 0, 0, 4⟩, ⟨2, 1, 1, 0, 4⟩, rfl, rfl, rfl, rfl, rfl⟩

/-- Assigning rows of a matrix to other rows of the same matrix (here: swapping two rows) likewise. -/
theorem C46_assign_alias_violated :
    ∃ (d d1 d2 : Device Rat) (m : DevMatrix), d.mats = [m] ∧
      devAssignRows [0, 1] m m [1, 0] d = .ok d1 ∧ devAssignRows [1, 0] m m [1, 0] d = .ok d2 ∧
      devToNumpy m d1 = .ok [1, 1] ∧ devToNumpy m d2 = .ok [2, 2] :=
  ⟨⟨[[1, 2]], [⟨2, 1, 0, 0, 4⟩]⟩, ⟨[[1, 1]], [⟨2, 1, 0, 0, 4⟩]⟩, ⟨[[2, 2]], [⟨2, 1, 0, 0, 4⟩]⟩, ⟨2, 1, 0, 0, 4⟩,
    rfl, rfl, rfl, rfl, rfl⟩

/-- A slice, or a conversion to the type the matrix already has, shares the storage: assigning to it changes the
original.  After the original is grown, the two are separate. -/
theorem C46_shared_violated :
    ∃ d : Device Rat, devRun id ⟨[], []⟩
      [.fromHost ⟨2, 1, 4, [1, 2], 0, 1, 1⟩, .asType 0 4, .fromHost ⟨1, 1, 4, [9], 0, 1, 1⟩,
       .assignRows [0] 1 2 [0], .resize 0 3 1, .assignRows [0] 1 2 [1]] = .ok d ∧
      (d.mats.map fun m => (devToNumpy m d).toOption) = [some [9, 2, 0], some [9, 9], some [9]] := by
  refine ⟨⟨[[9, 9], [9], [9, 2, 0]], [⟨3, 1, 2, 0, 4⟩, ⟨2, 1, 0, 0, 4⟩, ⟨1, 1, 1, 0, 4⟩]⟩, rfl, by decide +kernel⟩

end Implicit
