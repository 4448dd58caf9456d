import Verif.Model.GpuKnn
import Verif.Spec.GpuKnn
import Verif.Lemmas.Memory
import Mathlib.Tactic.Ring
import Mathlib.Tactic.Linarith
import Mathlib.Data.List.GetD

/-!
# Lemmas on the GPU top-k loop
-/

namespace Implicit

theorem writeAll_fun {β : Type*} (g : Nat → β) {ws : List (Nat × β)} : ∀ {mem mem' : List β},
    writeAll mem ws = .ok mem' → (∀ w ∈ ws, w.2 = g w.1) →
    ∀ a, mem'[a]? = if a ∈ ws.map Prod.fst then some (g a) else mem[a]? := by
  induction ws with
  | nil => intro mem mem' h _ a; cases h; simp
  | cons w ws ih =>
    intro mem mem' h hg a
    rw [writeAll_cons] at h
    unfold writeCell at h
    by_cases hw : w.1 < mem.length
    · rw [if_pos hw] at h
      have := ih (mem := mem.set w.1 w.2) h (fun v hv => hg v (List.mem_cons_of_mem _ hv)) a
      rw [this, List.map_cons]
      by_cases ha : a ∈ ws.map Prod.fst
      · rw [if_pos ha, if_pos (List.mem_cons_of_mem _ ha)]
      · rw [if_neg ha]
        by_cases e : a = w.1
        · subst e
          rw [if_pos List.mem_cons_self, List.getElem?_set_self hw, hg w List.mem_cons_self]
        · rw [if_neg (by simp only [List.mem_cons, not_or]; exact ⟨e, ha⟩),
            List.getElem?_set_ne (Ne.symm e)]
    · rw [if_neg hw] at h; cases h

variable {R : Type} [Field R] {f : Nat}

theorem flat_lt {n C r c : Nat} (hr : r < n) (hc : c < C) : r * C + c < n * C := by
  have : (r + 1) * C ≤ n * C := Nat.mul_le_mul_right _ hr
  rw [Nat.add_mul] at this; omega

theorem flat_div {C r c : Nat} (hc : c < C) : (r * C + c) / C = r := by
  rw [Nat.add_comm, Nat.add_mul_div_right _ _ (by omega), Nat.div_eq_of_lt hc, Nat.zero_add]

theorem flat_mod {C r c : Nat} (hc : c < C) : (r * C + c) % C = c := by
  rw [Nat.add_comm, Nat.add_mul_mod_self_right, Nat.mod_eq_of_lt hc]

/-- What one batch leaves in the temporary buffer. -/
def batchTemp (low : R) (q : GpuQuery f R) (start a : Nat) : R :=
  Spec.queryScore low q.items q.query q.norms q.itemFilter q.queryFilter
    (start + a / q.items.length) (a % q.items.length)

theorem gpuBatch_temp (low : R) (q : GpuQuery f R) {start stop : Nat} {temp : List R}
    (hC : 0 < q.items.length)
    (hi : ∀ l ∈ q.itemFilter, ∀ c ∈ l, c < q.items.length)
    (hq : ∀ l ∈ q.queryFilter, ∀ e ∈ l, e.2 < q.items.length)
    (hlen : (stop - start) * q.items.length ≤ temp.length) :
    ∃ t1 t2 t3, writeAll temp (gpuGemm q start stop) = .ok t1 ∧
      writeAll (gpuNormalise q start stop t1) (gpuItemFilter low q start stop) = .ok t2 ∧
      writeAll t2 (gpuQueryFilter low q start stop) = .ok t3 ∧ t3.length = temp.length ∧
      ∀ a < (stop - start) * q.items.length, t3[a]? = some (batchTemp low q start a) := by
  classical
  set C := q.items.length with hCd
  set n := stop - start with hn
  -- product
  obtain ⟨t1, e1, l1⟩ := writeAll_ok (gpuGemm q start stop) temp (by
    intro w hw
    simp only [gpuGemm, List.mem_flatMap, List.mem_map, List.mem_range] at hw
    obtain ⟨r, hr, c, hc, rfl⟩ := hw
    exact lt_of_lt_of_le (flat_lt hr hc) hlen)
  have g1 : ∀ a < n * C, t1[a]? =
      some (dot (q.items.getD (a % C) fun _ => 0) (q.query.getD (start + a / C) fun _ => 0)) := by
    intro a ha
    rw [writeAll_fun (fun a => dot (q.items.getD (a % C) fun _ => 0) (q.query.getD (start + a / C) fun _ => 0))
      e1 ?_ a, if_pos]
    · simp only [gpuGemm, List.map_flatMap, List.mem_flatMap, List.mem_map, List.mem_range]
      exact ⟨a / C, Nat.div_lt_of_lt_mul (by rwa [Nat.mul_comm]), (a / C * C + a % C, _),
        ⟨a % C, Nat.mod_lt _ hC, rfl⟩, Nat.div_add_mod' a C⟩
    · intro w hw
      simp only [gpuGemm, List.mem_flatMap, List.mem_map, List.mem_range] at hw
      obtain ⟨r, hr, c, hc, rfl⟩ := hw
      have hc' : c < C := hc
      simp only [← hCd, flat_div hc', flat_mod hc']
  -- norms
  have l1' : (gpuNormalise q start stop t1).length = temp.length := by
    rw [← l1]; unfold gpuNormalise; cases q.norms <;> simp
  have g1' : ∀ a < n * C, (gpuNormalise q start stop t1)[a]? = some
      (match q.norms with
        | none => dot (q.items.getD (a % C) fun _ => 0) (q.query.getD (start + a / C) fun _ => 0)
        | some l => dot (q.items.getD (a % C) fun _ => 0) (q.query.getD (start + a / C) fun _ => 0) /
            l.getD (a % C) 0) := by
    intro a ha
    unfold gpuNormalise
    cases q.norms with
    | none => exact g1 a ha
    | some l =>
      rw [List.getElem?_mapIdx, g1 a ha, Option.map_some]
      simp only [← hn, ← hCd, if_pos ha]
  -- item filter
  have mi : ∀ a < n * C, (a ∈ (gpuItemFilter low q start stop).map Prod.fst ↔
      ∃ l ∈ q.itemFilter, a % C ∈ l) := by
    intro a ha
    unfold gpuItemFilter
    cases hf : q.itemFilter with
    | none => simp
    | some l =>
      simp only [List.map_map, List.mem_map, List.mem_range, Function.comp, Option.mem_def, Option.some.injEq,
        exists_eq_left', ← hn, ← hCd]
      constructor
      · rintro ⟨i, hil, rfl⟩
        have hl0 : 0 < l.length := by
          rcases Nat.eq_zero_or_pos l.length with h | h
          · rw [h] at hil; simp at hil
          · exact h
        have hm : i % l.length < l.length := Nat.mod_lt _ hl0
        have hmem : l.getD (i % l.length) 0 ∈ l := by
          rw [List.getD_eq_getElem _ _ hm]; exact List.getElem_mem hm
        rw [flat_mod (hi l (by simp [hf]) _ hmem)]
        exact hmem
      · intro hm
        obtain ⟨j, hj, e⟩ := List.getElem_of_mem hm
        refine ⟨a / C * l.length + j, ?_, ?_⟩
        · rw [Nat.mul_comm l.length]
          exact flat_lt (Nat.div_lt_of_lt_mul (by rwa [Nat.mul_comm])) hj
        · rw [flat_div hj, flat_mod hj, List.getD_eq_getElem _ _ hj, e]
          exact Nat.div_add_mod' a C
  obtain ⟨t2, e2, l2⟩ := writeAll_ok (gpuItemFilter low q start stop) (gpuNormalise q start stop t1) (by
    intro w hw
    rw [l1']
    refine lt_of_lt_of_le ?_ hlen
    unfold gpuItemFilter at hw
    cases hf : q.itemFilter with
    | none => rw [hf] at hw; simp at hw
    | some l =>
      rw [hf] at hw
      simp only [List.mem_map, List.mem_range, ← hn, ← hCd] at hw
      obtain ⟨i, hil, rfl⟩ := hw
      have hl0 : 0 < l.length := by
        rcases Nat.eq_zero_or_pos l.length with h | h
        · rw [h] at hil; simp at hil
        · exact h
      have hm : i % l.length < l.length := Nat.mod_lt _ hl0
      have hmem : l.getD (i % l.length) 0 ∈ l := by
        rw [List.getD_eq_getElem _ _ hm]; exact List.getElem_mem hm
      exact flat_lt (Nat.div_lt_of_lt_mul hil) (hi l (by simp [hf]) _ hmem))
  have g2 : ∀ a < n * C, t2[a]? = if (∃ l ∈ q.itemFilter, a % C ∈ l) then some low else
      (gpuNormalise q start stop t1)[a]? := by
    intro a ha
    rw [writeAll_fun (fun _ => low) e2 ?_ a]
    · simp only [mi a ha]
    · intro w hw
      unfold gpuItemFilter at hw
      cases hf : q.itemFilter with
      | none => rw [hf] at hw; simp at hw
      | some l =>
        rw [hf] at hw
        simp only [List.mem_map] at hw
        obtain ⟨i, _, rfl⟩ := hw
        rfl
  -- query filter
  have mq : ∀ a < n * C, (a ∈ (gpuQueryFilter low q start stop).map Prod.fst ↔
      ∃ l ∈ q.queryFilter, (start + a / C, a % C) ∈ l) := by
    intro a ha
    unfold gpuQueryFilter
    cases hf : q.queryFilter with
    | none => simp
    | some l =>
      simp only [List.map_map, List.mem_map, List.mem_filter, Function.comp, Option.mem_def, Option.some.injEq,
        exists_eq_left', ← hCd, decide_eq_true_eq]
      constructor
      · rintro ⟨e, ⟨he, hs⟩, rfl⟩
        have h2 := hq l (by simp [hf]) e he
        rw [flat_mod h2, flat_div h2, Nat.add_sub_cancel' hs.1]
        exact he
      · intro hm
        have hd : a / C < n := Nat.div_lt_of_lt_mul (by rwa [Nat.mul_comm])
        refine ⟨_, ⟨hm, Nat.le_add_right _ _, Nat.add_lt_of_lt_sub' hd⟩, ?_⟩
        simp only [Nat.add_sub_cancel_left]
        exact Nat.div_add_mod' a C
  obtain ⟨t3, e3, l3⟩ := writeAll_ok (gpuQueryFilter low q start stop) t2 (by
    intro w hw
    rw [l2, l1']
    refine lt_of_lt_of_le ?_ hlen
    unfold gpuQueryFilter at hw
    cases hf : q.queryFilter with
    | none => rw [hf] at hw; simp at hw
    | some l =>
      rw [hf] at hw
      simp only [List.mem_map, List.mem_filter, decide_eq_true_eq, ← hCd] at hw
      obtain ⟨e, ⟨he, hs⟩, rfl⟩ := hw
      exact flat_lt (by omega) (hq l (by simp [hf]) e he))
  refine ⟨t1, t2, t3, e1, e2, e3, by rw [l3, l2, l1'], ?_⟩
  intro a ha
  rw [writeAll_fun (fun _ => low) e3 ?_ a]
  · simp only [mq a ha, g2 a ha, g1' a ha, batchTemp, Spec.queryScore, ← hCd]
    by_cases hA : ∃ l ∈ q.itemFilter, a % C ∈ l <;>
      by_cases hB : ∃ l ∈ q.queryFilter, (start + a / C, a % C) ∈ l
    all_goals simp only [hA, hB, if_true, if_false, true_or, or_true, or_self]
    rfl
  · intro w hw
    unfold gpuQueryFilter at hw
    cases hf : q.queryFilter with
    | none => rw [hf] at hw; simp at hw
    | some l =>
      rw [hf] at hw
      simp only [List.mem_map] at hw
      obtain ⟨i, _, rfl⟩ := hw
      rfl

/-- The scores of a query row, as a list. -/
def gpuScoreRow (low : R) (q : GpuQuery f R) (r : Nat) : List R :=
  (List.range q.items.length).map
    (Spec.queryScore low q.items q.query q.norms q.itemFilter q.queryFilter r)

theorem gpuScoreRow_eq (low : R) (q : GpuQuery f R) {start stop : Nat} {temp : List R}
    (h : ∀ a < (stop - start) * q.items.length, temp[a]? = some (batchTemp low q start a)) {r : Nat}
    (hr : r < stop - start) :
    (temp.drop (r * q.items.length)).take q.items.length = gpuScoreRow low q (start + r) := by
  apply List.ext_getElem?
  intro c
  by_cases hc : c < q.items.length
  · rw [List.getElem?_take_of_lt hc, List.getElem?_drop, h _ (flat_lt hr hc)]
    simp only [gpuScoreRow, List.getElem?_map, List.getElem?_range hc, Option.map_some, batchTemp, flat_div hc,
      flat_mod hc]
  · rw [List.getElem?_take, if_neg hc]
    simp only [gpuScoreRow, List.getElem?_map]
    rw [List.getElem?_eq_none (by simpa using hc)]
    rfl

/-- The output cell `a`. -/
def outCell (sel : List R → Nat → List (R × Nat)) (low : R) (q : GpuQuery f R) (k a : Nat) : R × Nat :=
  (sel (gpuScoreRow low q (a / k)) k).getD (a % k) (0, 0)

theorem gpuBatch_out (sel : List R → Nat → List (R × Nat)) (low : R) (q : GpuQuery f R) {k start stop : Nat}
    {temp : List R} {out : List (R × Nat)}
    (hsel : ∀ l : List R, k ≤ l.length → (sel l k).length = k)
    (hk : k ≤ q.items.length) (hs : start ≤ stop) (hout : stop * k ≤ out.length)
    (h : ∀ a < (stop - start) * q.items.length, temp[a]? = some (batchTemp low q start a)) :
    ∃ out', writeAll out (gpuSelect sel q k start stop temp) = .ok out' ∧ out'.length = out.length ∧
      ∀ a, out'[a]? = if start * k ≤ a ∧ a < stop * k then some (outCell sel low q k a) else out[a]? := by
  classical
  have hmin : min k q.items.length = k := Nat.min_eq_left hk
  have hlen : ∀ r, (sel (gpuScoreRow low q r) k).length = k := fun r => hsel _ (by simpa [gpuScoreRow] using hk)
  have hmem : ∀ w, w ∈ gpuSelect sel q k start stop temp ↔
      ∃ r < stop - start, ∃ j < k, w = (start * k + r * k + j,
        (sel (gpuScoreRow low q (start + r)) k).getD j (0, 0)) := by
    intro w
    simp only [gpuSelect, hmin, List.mem_flatMap, List.mem_range]
    refine exists_congr fun r => and_congr_right fun hr => ?_
    rw [gpuScoreRow_eq low q h hr, List.mem_mapIdx]
    constructor
    · rintro ⟨j, hj, rfl⟩
      exact ⟨j, by rwa [hlen] at hj, by rw [List.getD_eq_getElem _ _ hj]⟩
    · rintro ⟨j, hj, rfl⟩
      have hj' : j < (sel (gpuScoreRow low q (start + r)) k).length := by rwa [hlen]
      exact ⟨j, hj', by rw [List.getD_eq_getElem _ _ hj']⟩
  have hbd : ∀ r < stop - start, ∀ j < k, start * k + r * k + j < stop * k := by
    intro r hr j hj
    have := flat_lt (C := k) (n := stop) (r := start + r) (c := j) (by omega) hj
    rwa [Nat.add_mul] at this
  obtain ⟨out', e, l⟩ := writeAll_ok (gpuSelect sel q k start stop temp) out (by
    intro w hw
    obtain ⟨r, hr, j, hj, rfl⟩ := (hmem w).mp hw
    exact lt_of_lt_of_le (hbd r hr j hj) hout)
  refine ⟨out', e, l, ?_⟩
  intro a
  rw [writeAll_fun (outCell sel low q k) e ?_ a]
  · have : a ∈ (gpuSelect sel q k start stop temp).map Prod.fst ↔ start * k ≤ a ∧ a < stop * k := by
      rw [List.mem_map]
      constructor
      · rintro ⟨w, hw, rfl⟩
        obtain ⟨r, hr, j, hj, rfl⟩ := (hmem w).mp hw
        exact ⟨by dsimp only; omega, hbd r hr j hj⟩
      · rintro ⟨h1, h2⟩
        have hk0 : 0 < k := by
          rcases Nat.eq_zero_or_pos k with h0 | h0
          · rw [h0] at h2; simp at h2
          · exact h0
        have hd1 : start ≤ a / k := (Nat.le_div_iff_mul_le hk0).mpr h1
        have hd2 : a / k < stop := Nat.div_lt_of_lt_mul (by rwa [Nat.mul_comm])
        refine ⟨_, (hmem _).mpr ⟨a / k - start, by omega, a % k, Nat.mod_lt _ hk0, rfl⟩, ?_⟩
        dsimp only
        rw [← Nat.add_mul, Nat.add_sub_cancel' hd1]
        exact Nat.div_add_mod' a k
    simp only [this]
  · intro w hw
    obtain ⟨r, hr, j, hj, rfl⟩ := (hmem w).mp hw
    simp only [outCell]
    rw [← Nat.add_mul, flat_div hj, flat_mod hj]

theorem gpuLoop_ok (sel : List R → Nat → List (R × Nat)) (low : R) (q : GpuQuery f R) {k b : Nat}
    (hsel : ∀ l : List R, k ≤ l.length → (sel l k).length = k)
    (hC : 0 < q.items.length) (hk : k ≤ q.items.length)
    (hi : ∀ l ∈ q.itemFilter, ∀ c ∈ l, c < q.items.length)
    (hq : ∀ l ∈ q.queryFilter, ∀ e ∈ l, e.2 < q.items.length) (m : Nat) :
    ∀ (start : Nat) (temp : List R) (out : List (R × Nat)), q.query.length - start ≤ m →
      min (b + 1) (q.query.length - start) * q.items.length ≤ temp.length →
      q.query.length * k = out.length →
      (∀ a < start * k, a < out.length → out[a]? = some (outCell sel low q k a)) →
      ∃ temp' out', gpuLoop sel low q k b start (temp, out) = .ok (temp', out') ∧
        out'.length = out.length ∧ ∀ a < out.length, out'[a]? = some (outCell sel low q k a) := by
  induction m with
  | zero =>
    intro start temp out hm _ hl hinv
    rw [gpuLoop, if_neg (by omega)]
    refine ⟨_, _, rfl, rfl, fun a ha => hinv a ?_ ha⟩
    have : q.query.length * k ≤ start * k := Nat.mul_le_mul_right _ (by omega)
    omega
  | succ m ih =>
    intro start temp out hm ht hl hinv
    rw [gpuLoop]
    by_cases hs : start < q.query.length
    · rw [if_pos hs]
      set stop := min q.query.length (start + (b + 1)) with hstop
      have hn : stop - start = min (b + 1) (q.query.length - start) := by omega
      obtain ⟨t1, t2, t3, e1, e2, e3, hl3, hg⟩ := gpuBatch_temp low q (start := start) (stop := stop) (temp := temp)
        hC hi hq (by rw [hn]; exact ht)
      obtain ⟨out', e4, hl4, hg4⟩ := gpuBatch_out sel low q (start := start) (stop := stop) (temp := t3) (out := out)
        hsel hk (by omega) (by rw [← hl]; exact Nat.mul_le_mul_right _ (by omega)) hg
      have hb : gpuBatch sel low q k start stop (temp, out) = .ok (t3, out') := by
        simp only [gpuBatch, bind, Except.bind, e1, e2, e3, e4]
      obtain ⟨temp', out'', e5, hl5, hg5⟩ := ih (start + (b + 1)) t3 out' (by omega)
        (by rw [hl3]; refine le_trans (Nat.mul_le_mul_right _ ?_) ht; omega) (by rw [hl4]; exact hl) (by
          intro a ha hal
          rw [hg4 a]
          by_cases hin : start * k ≤ a ∧ a < stop * k
          · rw [if_pos hin]
          · rw [if_neg hin]
            by_cases h1 : a < start * k
            · exact hinv a h1 (by rwa [hl4] at hal)
            · exfalso
              have h2 : stop * k ≤ a := by
                by_contra h2; exact hin ⟨by omega, by omega⟩
              rcases Nat.le_total q.query.length (start + (b + 1)) with h3 | h3
              · rw [hstop, Nat.min_eq_left h3] at h2; omega
              · rw [hstop, Nat.min_eq_right h3] at h2; omega)
      refine ⟨temp', out'', ?_, by rw [hl5, hl4], fun a ha => hg5 a (by rwa [hl4])⟩
      simp only [bind, Except.bind, hb, e5]
    · rw [if_neg hs]
      refine ⟨_, _, rfl, rfl, fun a ha => hinv a ?_ ha⟩
      have : q.query.length * k ≤ start * k := Nat.mul_le_mul_right _ (by omega)
      omega

end Implicit
