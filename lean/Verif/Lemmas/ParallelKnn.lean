import Verif.Model.ParallelKnn
import Verif.Lemmas.KnnLoop
import Verif.Lemmas.Parallel

set_option linter.unusedSectionVars false

namespace Implicit

variable {R : Type} [LinearOrder R] [Field R]

theorem run_adds (H : HeapImpl (R × Nat) pairLt) (n K : Nat) : ∀ (adds : List (Nat × R))
    (s : KnnScratch R) (m : Nat → KnnCell R) (a : Accum R), s.acc.addAll adds = .ok a →
    runInstrs (knnAct H n K) (adds.map fun e => .add e.1 e.2) s m = ({ s with acc := a }, m)
  | [], s, m, a, h => by cases h; rfl
  | e :: adds, s, m, a, h => by
    unfold Accum.addAll at h
    cases h1 : s.acc.add e.1 e.2 with
    | error e' => rw [h1] at h; cases h
    | ok a1 =>
      rw [h1] at h
      rw [List.map_cons]
      unfold runInstrs
      simp only [knnAct, h1]
      exact run_adds H n K adds { s with acc := a1 } m a h

/-- The three stores of one result. -/
theorem run_store (H : HeapImpl (R × Nat) pairLt) {n K i p : Nat} (hnK : n * K ≤ 2 ^ 31) (hi : i < n)
    (hp : p < K) (s : KnnScratch R) (m : Nat → KnnCell R) :
    runInstrs (knnAct H n K) (knnStoreProg i p) s m = (s, match s.results[p]? with
      | none => m
      | some x => Function.update m (K * i + p) (i, x.2, x.1)) := by
  have hs := knnSlot_eq hnK hi hp
  unfold knnStoreProg
  simp only [runInstrs, knnAct, hs]
  cases h : s.results[p]? with
  | none => rfl
  | some x =>
    simp only [storeAt, Function.update_self, Function.update_idem]

theorem run_stores (H : HeapImpl (R × Nat) pairLt) {n K i : Nat} (hnK : n * K ≤ 2 ^ 31) (hi : i < n)
    (s : KnnScratch R) : ∀ (ps : List Nat) (m : Nat → KnnCell R), (∀ p ∈ ps, p < K) →
    (runInstrs (knnAct H n K) (ps.flatMap (knnStoreProg i)) s m).1 = s ∧
      ∀ p, (runInstrs (knnAct H n K) (ps.flatMap (knnStoreProg i)) s m).2 (K * i + p) =
        match s.results[p]? with
        | none => m (K * i + p)
        | some x => if p ∈ ps then (i, x.2, x.1) else m (K * i + p)
  | [], m, _ => ⟨rfl, fun p => by
      show m (K * i + p) = _
      cases s.results[p]? <;> simp⟩
  | q :: ps, m, h => by
    rw [List.flatMap_cons, run_append, run_store H hnK hi (h q (by simp))]
    obtain ⟨h1, h2⟩ := run_stores H hnK hi s ps (match s.results[q]? with
      | none => m
      | some x => Function.update m (K * i + q) (i, x.2, x.1)) (fun p hp => h p (by simp [hp]))
    refine ⟨h1, fun p => ?_⟩
    rw [h2 p]
    by_cases hpq : p = q
    · subst hpq
      cases hx : s.results[p]? with
      | none => simp
      | some x => simp
    · have hne : K * i + p ≠ K * i + q := by omega
      have e : (match s.results[q]? with
        | none => m
        | some x => Function.update m (K * i + q) (i, x.2, x.1)) (K * i + p) = m (K * i + p) := by
        cases s.results[q]? with
        | none => rfl
        | some x => simp only [Function.update_of_ne hne]
      rw [e]
      simp [hpq]

/-- The slots of item `i`. -/
def knnOwn (K i : Nat) : Set Nat := {a | ∃ p < K, a = K * i + p}

/-- What item `i` makes of its slots. -/
def knnEffect (H : HeapImpl (R × Nat) pairLt) (n K : Nat) (M : SpRows R) (i : Nat)
    (m : Nat → KnnCell R) (a : Nat) : KnnCell R :=
  if i < n then
    match (knnHeap H n K M (colOf n M i))[a - K * i]? with
    | none => m a
    | some x => (i, x.2, x.1)
  else m a

theorem storeAt_local {m m' : Nat → KnnCell R} {b : Nat} {D : Set Nat} (hb : b ∈ D)
    (g : KnnCell R → KnnCell R) :
    (∀ a, a ∉ D → storeAt m (.ok b) g a = m a) ∧
      ((∀ a ∈ D, m a = m' a) → ∀ a ∈ D, storeAt m (.ok b) g a = storeAt m' (.ok b) g a) := by
  unfold storeAt
  refine ⟨fun a ha => ?_, fun h a ha => ?_⟩
  · have : a ≠ b := by rintro rfl; exact ha hb
    simp only [Function.update_of_ne this]
  · by_cases hab : a = b
    · subst hab; simp [h a ha]
    · simp only [Function.update_of_ne hab]; exact h a ha

theorem knn_local (H : HeapImpl (R × Nat) pairLt) {n K : Nat} (hnK : n * K ≤ 2 ^ 31) (M : SpRows R)
    (i : Nat) : ∀ ins ∈ knnProg n K M i, LocalTo (knnAct H n K) (knnOwn K i) ins := by
  intro ins hins
  unfold knnProg at hins
  cases hr : (transposeRows n M)[i]? with
  | none => rw [hr] at hins; simp at hins
  | some row =>
    have hi : i < n := by
      have := (List.getElem?_eq_some_iff.mp hr).1
      rwa [transpose_length] at this
    rw [hr] at hins
    simp only at hins
    rcases List.mem_append.mp hins with h | h
    · rcases List.mem_append.mp h with h | h
      · cases hp : productAdds M row with
        | error e => rw [hp] at h; simp at h
        | ok adds =>
          rw [hp] at h
          obtain ⟨e, -, rfl⟩ := List.mem_map.mp h
          exact ⟨fun s m a _ => rfl, fun s m m' hm => ⟨rfl, hm⟩⟩
      · have : ins = .collect := by simpa using h
        subst this
        exact ⟨fun s m a _ => rfl, fun s m m' hm => ⟨rfl, hm⟩⟩
    · obtain ⟨p, hp, hins⟩ := List.mem_flatMap.mp h
      have hp := List.mem_range.mp hp
      have hs := knnSlot_eq hnK hi hp
      have hown : K * i + p ∈ knnOwn K i := ⟨p, hp, rfl⟩
      unfold knnStoreProg at hins
      simp only [List.mem_cons, List.not_mem_nil, or_false] at hins
      rcases hins with rfl | rfl | rfl
      all_goals
        refine ⟨fun s m a ha => ?_, fun s m m' hm => ⟨rfl, fun a ha => ?_⟩⟩
        · simp only [knnAct, hs]
          cases s.results[p]? with
          | none => rfl
          | some x => exact (storeAt_local (m' := m) hown _).1 a ha
        · simp only [knnAct, hs]
          cases s.results[p]? with
          | none => exact hm a ha
          | some x => exact (storeAt_local hown _).2 hm a ha

theorem knn_taskSpec (H : HeapImpl (R × Nat) pairLt) {n K : Nat} (hK : 1 ≤ K) (hnK : n * K ≤ 2 ^ 31)
    (M : SpRows R) (hM : ∀ r ∈ M, ∀ e ∈ r, e.1 < n) :
    TaskSpec (knnAct H n K) (knnProg n K M) (knnOwn K) (fun s => s.acc = Accum.new n)
      (knnEffect H n K M) where
  disjoint := by
    intro t t' hne
    rw [Set.disjoint_left]
    rintro a ⟨p, hp, rfl⟩ ⟨p', hp', h⟩
    rw [Nat.mul_comm K t, Nat.mul_comm K t'] at h
    exact hne (addr_inj hp hp' h).1
  localTo := fun t => knn_local H hnK M t
  depends := by
    intro t m m' h a ha
    unfold knnEffect
    by_cases ht : t < n
    · rw [if_pos ht, if_pos ht]
      cases (knnHeap H n K M (colOf n M t))[a - K * t]? with
      | none => exact h a ha
      | some x => rfl
    · rw [if_neg ht, if_neg ht]; exact h a ha
  effect := by
    intro i s m hs
    by_cases hi : i < n
    · obtain ⟨adds, e1, -, -⟩ := productAdds_ok M _ (colOf_bound M hi)
      obtain ⟨acc, l, e2, hrep, -, -, e3⟩ := round_ok (R := R) adds (productAdds_bound M hM e1)
      obtain ⟨h, e4, -, -, -⟩ := accum_heap H hK hrep.nodup (totalAt adds)
      have hheap : knnHeap H n K M (colOf n M i) = h := by
        unfold knnHeap knnRow
        rw [e1]
        simp only [bind, Except.bind, e2, e3, e4]
        rfl
      have hprog : knnProg n K M i = (adds.map fun e => KnnInstr.add e.1 e.2) ++ ([.collect] ++
          (List.range K).flatMap (knnStoreProg i)) := by
        unfold knnProg
        rw [colOf_get M hi]
        simp only [e1, List.append_assoc]
      rw [hprog, run_append, run_adds H n K adds s m acc (by rw [hs]; exact e2), run_append]
      have hcol : runInstrs (knnAct H n K) [.collect] { s with acc := acc } m =
          (⟨Accum.new n, h⟩, m) := by
        simp only [runInstrs, knnAct, e3, e4]
      rw [hcol]
      obtain ⟨h1, h2⟩ := run_stores H hnK hi ⟨Accum.new n, h⟩ (List.range K) m
        (fun p hp => List.mem_range.mp hp)
      refine ⟨by rw [h1], ?_⟩
      rintro a ⟨p, hp, rfl⟩
      rw [h2 p]
      unfold knnEffect
      rw [if_pos hi, hheap, Nat.add_sub_cancel_left]
      cases h[p]? with
      | none => rfl
      | some x => simp only; rw [if_pos (List.mem_range.mpr hp)]
    · have hprog : knnProg n K M i = [] := by
        unfold knnProg
        rw [List.getElem?_eq_none (by rw [transpose_length]; omega)]
      rw [hprog]
      refine ⟨hs, fun a _ => ?_⟩
      unfold knnEffect
      rw [if_neg hi]; rfl

/-- Cell `p` of block `i`. -/
theorem getElem?_blocks {β : Type} (K : Nat) (b : Nat → List β) (hb : ∀ i, (b i).length = K) :
    ∀ (n i p : Nat), i < n → p < K → ((List.range n).flatMap b)[K * i + p]? = (b i)[p]?
  | 0, i, p, hi, _ => by omega
  | n + 1, i, p, hi, hp => by
    have hlen : ((List.range n).flatMap b).length = n * K := by
      rw [List.length_flatMap]
      have : (List.range n).map (fun i => (b i).length) = List.replicate n K := by
        rw [List.eq_replicate_iff]; simp [hb]
      rw [this]; simp
    rw [List.range_succ, List.flatMap_append]
    by_cases h : i < n
    · rw [List.getElem?_append_left (by rw [hlen]; exact slot_lt h hp)]
      exact getElem?_blocks K b hb n i p h hp
    · have : i = n := by omega
      subst this
      rw [List.getElem?_append_right (by rw [hlen, Nat.mul_comm]; omega), hlen, Nat.mul_comm i K,
        Nat.add_sub_cancel_left]
      simp

end Implicit
