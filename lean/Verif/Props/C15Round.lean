import Verif.Lemmas.ParallelKnn
import Verif.Lemmas.RoundKnn
import Verif.Model.RoundParallelKnn
import Verif.Props.C15
/-!
# C15: `all_pairs_knn` in floating point does not depend on the threads
-/

set_option linter.unusedSectionVars false

namespace Implicit

variable {R : Type} [LinearOrder R] [Field R] {Th : Type} [DecidableEq Th]

theorem round_run_adds (H : HeapImpl (R × Nat) pairLt) (r : Rounding R) (n K : Nat) : ∀ (adds : List (Nat × R))
    (s : KnnScratch R) (m : Nat → KnnCell R) (a : Accum R), roundAddAll r s.acc adds = .ok a →
    runInstrs (roundKnnAct H r n K) (adds.map fun e => .add e.1 e.2) s m = ({ s with acc := a }, m)
  | [], s, m, a, h => by cases h; rfl
  | e :: adds, s, m, a, h => by
    unfold roundAddAll Accum.addAll at h
    cases h1 : @Accum.add R r.toAdd s.acc e.1 e.2 with
    | error e' => rw [h1] at h; cases h
    | ok a1 =>
      rw [h1] at h
      rw [List.map_cons]
      unfold runInstrs
      simp only [roundKnnAct, h1]
      exact round_run_adds H r n K adds { s with acc := a1 } m a h

theorem round_run_stores (H : HeapImpl (R × Nat) pairLt) (r : Rounding R) (n K i : Nat) (ps : List Nat) (s : KnnScratch R) (m : Nat → KnnCell R) :
    runInstrs (roundKnnAct H r n K) (ps.flatMap (knnStoreProg i)) s m = runInstrs (knnAct H n K) (ps.flatMap (knnStoreProg i)) s m := by
  induction ps generalizing s m with
  | nil => rfl
  | cons p ps ih =>
    rw [List.flatMap_cons, run_append, run_append]
    have e : runInstrs (roundKnnAct H r n K) (knnStoreProg i p) s m = runInstrs (knnAct H n K) (knnStoreProg i p) s m := rfl
    rw [e]
    exact ih _ _

/-- What item `i` makes of its slots. -/
def roundKnnEffect (H : HeapImpl (R × Nat) pairLt) (r : Rounding R) (n K : Nat) (M : SpRows R) (i : Nat)
    (m : Nat → KnnCell R) (a : Nat) : KnnCell R :=
  if i < n then
    match (roundHeap H r n K M (colOf n M i))[a - K * i]? with
    | none => m a
    | some x => (i, x.2, x.1)
  else m a

theorem round_knn_local (H : HeapImpl (R × Nat) pairLt) (r : Rounding R) {n K : Nat} (hnK : n * K ≤ 2 ^ 31) (M : SpRows R)
    (i : Nat) : ∀ ins ∈ roundKnnProg r n K M i, LocalTo (roundKnnAct H r n K) (knnOwn K i) ins := by
  intro ins hins
  unfold roundKnnProg at hins
  cases hr : (transposeRows n M)[i]? with
  | none => rw [hr] at hins; simp at hins
  | some row =>
    have hi : i < n := by
      have := (List.getElem?_eq_some_iff.mp hr).1
      rwa [transpose_length] at this
    rw [hr] at hins
    simp only at hins
    rcases List.mem_append.mp hins with h | h
    · rcases List.mem_append.mp h with h | h
      · cases hp : roundProducts r M row with
        | error e => rw [hp] at h; simp at h
        | ok adds =>
          rw [hp] at h
          obtain ⟨e, -, rfl⟩ := List.mem_map.mp h
          exact ⟨fun s m a _ => rfl, fun s m m' hm => ⟨rfl, hm⟩⟩
      · have : ins = .collect := by simpa using h
        subst this
        exact ⟨fun s m a _ => rfl, fun s m m' hm => ⟨rfl, hm⟩⟩
    · obtain ⟨p, hp, hins⟩ := List.mem_flatMap.mp h
      have hp := List.mem_range.mp hp
      have hs := knnSlot_eq hnK hi hp
      have hown : K * i + p ∈ knnOwn K i := ⟨p, hp, rfl⟩
      unfold knnStoreProg at hins
      simp only [List.mem_cons, List.not_mem_nil, or_false] at hins
      rcases hins with rfl | rfl | rfl
      all_goals
        refine ⟨fun s m a ha => ?_, fun s m m' hm => ⟨rfl, fun a ha => ?_⟩⟩
        · simp only [roundKnnAct, knnAct, hs]
          cases s.results[p]? with
          | none => rfl
          | some x => exact (storeAt_local (m' := m) hown _).1 a ha
        · simp only [roundKnnAct, knnAct, hs]
          cases s.results[p]? with
          | none => exact hm a ha
          | some x => exact (storeAt_local hown _).2 hm a ha

theorem round_knn_taskSpec (H : HeapImpl (R × Nat) pairLt) (r : Rounding R) {n K : Nat} (hK : 1 ≤ K) (hnK : n * K ≤ 2 ^ 31)
    (M : SpRows R) (hM : ∀ r ∈ M, ∀ e ∈ r, e.1 < n) :
    TaskSpec (roundKnnAct H r n K) (roundKnnProg r n K M) (knnOwn K) (fun s => s.acc = Accum.new n)
      (roundKnnEffect H r n K M) where
  disjoint := by
    intro t t' hne
    rw [Set.disjoint_left]
    rintro a ⟨p, hp, rfl⟩ ⟨p', hp', h⟩
    rw [Nat.mul_comm K t, Nat.mul_comm K t'] at h
    exact hne (addr_inj hp hp' h).1
  localTo := fun t => round_knn_local H r hnK M t
  depends := by
    intro t m m' h a ha
    unfold roundKnnEffect
    by_cases ht : t < n
    · rw [if_pos ht, if_pos ht]
      cases (roundHeap H r n K M (colOf n M t))[a - K * t]? with
      | none => exact h a ha
      | some x => rfl
    · rw [if_neg ht, if_neg ht]; exact h a ha
  effect := by
    intro i s m hs
    by_cases hi : i < n
    · obtain ⟨adds, acc, l, e1, e2, hrep, hlen, -⟩ := roundAdds_ok r M hM _ (colOf_bound M hi)
      have e3 : acc.foreach = .ok (l.map fun j => (j, roundSum r (pairsAt M (colOf n M i) j)), Accum.new n) := by
        unfold Accum.foreach
        rw [hlen]
        exact hrep.drain
      obtain ⟨h, e4, -, -, -⟩ := accum_heap H hK hrep.nodup (fun j => roundSum r (pairsAt M (colOf n M i) j))
      have hheap : roundHeap H r n K M (colOf n M i) = h := by
        unfold roundHeap roundRow
        rw [e1]
        simp only [bind, Except.bind, e2, e3, e4]
        rfl
      have hprog : roundKnnProg r n K M i = (adds.map fun e => KnnInstr.add e.1 e.2) ++ ([.collect] ++
          (List.range K).flatMap (knnStoreProg i)) := by
        unfold roundKnnProg
        rw [colOf_get M hi]
        simp only [e1, List.append_assoc]
      rw [hprog, run_append, round_run_adds H r n K adds s m acc (by rw [hs]; exact e2), run_append]
      have hcol : runInstrs (roundKnnAct H r n K) [.collect] { s with acc := acc } m = (⟨Accum.new n, h⟩, m) := by
        simp only [runInstrs, roundKnnAct, knnAct, e3, e4]
      rw [hcol, round_run_stores]
      obtain ⟨h1, h2⟩ := run_stores H hnK hi ⟨Accum.new n, h⟩ (List.range K) m
        (fun p hp => List.mem_range.mp hp)
      refine ⟨by rw [h1], ?_⟩
      rintro a ⟨p, hp, rfl⟩
      rw [h2 p]
      unfold roundKnnEffect
      rw [if_pos hi, hheap, Nat.add_sub_cancel_left]
      cases h[p]? with
      | none => rfl
      | some x => simp only; rw [if_pos (List.mem_range.mpr hp)]
    · have hprog : roundKnnProg r n K M i = [] := by
        unfold roundKnnProg
        rw [List.getElem?_eq_none (by rw [transpose_length]; omega)]
      rw [hprog]
      refine ⟨hs, fun a _ => ?_⟩
      unfold roundKnnEffect
      rw [if_neg hi]; rfl

/-- **C15** (nearest-neighbour rows in floating point; partial: while `item_count * K` fits, see C24).  Whatever the threads, the assignment of items to
threads and the interleaving of their instructions, `fit` makes the same similarity matrix of the output arrays as with one thread, to the last bit,
and nothing behind the arrays is written. -/
theorem C15_all_pairs_round_partial (H : HeapImpl (R × Nat) pairLt) (r : Rounding R) (n K : Nat) (hK : 1 ≤ K)
    (hnK : n * K ≤ 2 ^ 31) (M : SpRows R) (hM : ∀ r ∈ M, ∀ e ∈ r, e.1 < n)
    (queue : Th → List Nat) (hq : Assignment n queue) (w : List (Th × KnnInstr R))
    (hw : IsSchedule (roundKnnProg r n K M) queue w) (σ : Th → KnnScratch R)
    (hσ : ∀ th, (σ th).acc = Accum.new n) (m : Nat → KnnCell R) (hm : ∀ a < n * K, m a = (0, 0, 0)) :
    roundKnnFit H r n K M = .ok (cooToCsr n ((List.range (n * K)).map (execInterleaved (roundKnnAct H r n K) w σ m).2)) ∧
      ∀ a, n * K ≤ a → (execInterleaved (roundKnnAct H r n K) w σ m).2 a = m a := by
  have hlenh : ∀ i, i < n → (roundHeap H r n K M (colOf n M i)).length ≤ K := by
    intro i hi
    obtain ⟨h, e1, hl, -, -⟩ := roundRow_ok H r hK M hM _ (colOf_bound M hi)
    have hh : roundHeap H r n K M (colOf n M i) = h := by unfold roundHeap; rw [e1]
    rw [hh]; exact hl
  obtain ⟨h1, h2⟩ := parallel_for (round_knn_taskSpec H r hK hnK M hM) queue hq.nodup hq.disjoint w hw σ hσ m
  set b : Nat → List (KnnCell R) := fun i =>
    if i < n then slotBlock K i (roundHeap H r n K M (colOf n M i)) else List.replicate K (0, 0, 0) with hb
  have hbl : ∀ i, (b i).length = K := by
    intro i
    simp only [hb]
    by_cases hi : i < n
    · rw [if_pos hi]
      have := hlenh i hi
      simp [slotBlock]; omega
    · rw [if_neg hi]; simp
  have hcells : ((List.range n).flatMap fun i => slotBlock K i (roundHeap H r n K M (colOf n M i))) =
      (List.range n).flatMap b :=
    List.flatMap_congr fun i hi => by simp only [hb]; rw [if_pos (List.mem_range.mp hi)]
  have hclen : ((List.range n).flatMap b).length = n * K := by
    rw [List.length_flatMap]
    have : (List.range n).map (fun i => (b i).length) = List.replicate n K := by
      rw [List.eq_replicate_iff]; simp [hbl]
    rw [this]; simp
  have hval : ∀ a c, ((List.range n).flatMap b)[a]? = some c → (execInterleaved (roundKnnAct H r n K) w σ m).2 a = c := by
    intro a c hc
    have ha : a < n * K := by
      have := (List.getElem?_eq_some_iff.mp hc).1
      rwa [hclen] at this
    have hi : a / K < n := Nat.div_lt_of_lt_mul (by rw [Nat.mul_comm]; exact ha)
    have hp : a % K < K := Nat.mod_lt _ (by omega)
    have hae : K * (a / K) + a % K = a := Nat.div_add_mod a K
    obtain ⟨th, hth⟩ := (hq.covers (a / K)).mp hi
    rw [h1 th _ hth a ⟨a % K, hp, hae.symm⟩]
    have hget := getElem?_blocks K b hbl n (a / K) (a % K) hi hp
    rw [hae, hc] at hget
    unfold roundKnnEffect
    rw [if_pos hi]
    have hsub : a - K * (a / K) = a % K := by omega
    rw [hsub]
    simp only [hb, if_pos hi] at hget
    unfold slotBlock at hget
    cases hx : (roundHeap H r n K M (colOf n M (a / K)))[a % K]? with
    | none =>
      rw [List.getElem?_append_right (by simpa using List.getElem?_eq_none_iff.mp hx)] at hget
      simp only
      have := (List.mem_replicate.mp (List.mem_of_getElem? hget.symm)).2
      rw [this]; exact hm a ha
    | some x =>
      have hlt := (List.getElem?_eq_some_iff.mp hx).1
      rw [List.getElem?_append_left (by simpa using hlt), List.getElem?_map, hx] at hget
      simp only [Option.map_some, Option.some.injEq] at hget
      exact hget.symm
  constructor
  · rw [roundKnnFit_eq H r hK hnK M hM, hcells]
    congr 2
    apply List.ext_getElem (by rw [hclen]; simp)
    intro a ha ha'
    rw [List.getElem_map, List.getElem_range]
    exact (hval a _ (List.getElem?_eq_getElem ha)).symm
  · intro a ha
    refine h2 a ?_
    rintro th t ht ⟨p, hp, rfl⟩
    have : t < n := (hq.covers t).mpr ⟨th, ht⟩
    have := slot_lt this hp
    omega

/-- Two threads, one item each, alternating instructions, four binary digits: `3 * 7 = 21` is stored as 20 or 22. -/
example :
    let M : SpRows Rat := [[(0, 3), (1, 7)]]
    let r : Rounding Rat := binaryFloat 4 (-10)
    let queue : Bool → List Nat := fun t => if t then [1] else [0]
    let p := roundKnnProg r 2 1 M
    let w := (List.zip (p 0) (p 1)).flatMap fun q => [(false, q.1), (true, q.2)]
    let m := (execInterleaved (roundKnnAct insertionHeap r 2 1) w (fun _ => ⟨Accum.new 2, []⟩) fun _ => (0, 0, 0)).2
    Assignment 2 queue ∧ IsSchedule p queue w ∧ w.length = 12 ∧ (m 0 = (0, 1, 20) ∨ m 0 = (0, 1, 22)) := by
  intro M r queue p w m
  refine ⟨⟨by decide, ?_, ?_⟩, ?_, by decide +kernel, by decide +kernel⟩
  · intro t t' h u hu
    cases t <;> cases t' <;> simp_all [queue]
  · intro u
    simp only [queue]
    constructor
    · intro h
      rcases (by omega : u = 0 ∨ u = 1) with rfl | rfl
      · exact ⟨false, by simp⟩
      · exact ⟨true, by simp⟩
    · rintro ⟨t, ht⟩; cases t <;> simp at ht <;> omega
  · intro t; cases t <;> rfl

end Implicit
