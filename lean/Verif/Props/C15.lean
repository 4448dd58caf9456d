import Verif.Lemmas.ParallelALS
import Verif.Lemmas.ParallelKnn
import Verif.Lemmas.Solver
import Verif.Props.C03
import Verif.Props.C11

/-!
# C15 — parallel native loops are deterministic

`w` is any interleaving of the instruction streams of any number of threads, the rows being assigned
to the threads in any way; `σ` is any initial content of the thread-private buffers.
-/

set_option linter.unusedSectionVars false

namespace Implicit

variable {R : Type} [LinearOrder R] [Field R] {f : Nat} {Th : Type} [DecidableEq Th]

theorem mapM_range_ok {ε β : Type} {g : Nat → Except ε β} {n : Nat} {r : List β}
    (h : (List.range n).mapM g = .ok r) : r.length = n ∧
      ∀ u, u < n → ∃ y, g u = .ok y ∧ r[u]? = some y := by
  obtain ⟨h1, h2⟩ := mapM_ok_iff h
  refine ⟨by simpa using h1, fun u hu => h2 u u (by simp [hu])⟩

/-- **C15** (direct solver).  Whatever the threads, the assignment of rows to threads and the
interleaving of their elementary steps, `X` ends up holding the result of the sequential loop, and
nothing beyond row `users` is written. -/
theorem C15_least_squares (S : Solver f R) (G : Mat f R) (C : SpRows R) (users : Nat)
    (Y : List (Vec f R)) (reg : R) (X' : List (Vec f R))
    (h : leastSquaresNative S G C users Y reg = .ok X')
    (queue : Th → List Nat) (hq : Assignment users queue) (w : List (Th × LSInstr f R))
    (hw : IsSchedule (fun u => lsProg (taskEntries C Y u) u) queue w)
    (σ : Th → LSScratch f R) (m : Nat × Fin f → R) :
    (∀ (u : Nat) x j, X'[u]? = some x → (execInterleaved (lsAct S G reg) w σ m).2 (u, j) = x j) ∧
      ∀ u j, users ≤ u → (execInterleaved (lsAct S G reg) w σ m).2 (u, j) = m (u, j) := by
  obtain ⟨hlen, hrow⟩ := mapM_range_ok h
  obtain ⟨h1, h2⟩ := parallel_for (ls_taskSpec S G reg (taskEntries C Y)) queue hq.nodup
    hq.disjoint w hw σ (fun _ => trivial) m
  constructor
  · intro u x j hx
    have hu : u < users := by rw [← hlen]; exact (List.getElem?_eq_some_iff.mp hx).1
    obtain ⟨th, hth⟩ := (hq.covers u).mp hu
    rw [h1 th u hth (u, j) rfl]
    obtain ⟨y, hy, hy'⟩ := hrow u hu
    rw [hx] at hy'; cases hy'
    have : lsResult S G reg (taskEntries C Y u) = some x := by
      unfold taskEntries
      cases hC : C[u]? with
      | none => rw [hC] at hy; cases hy
      | some row =>
        rw [hC] at hy
        simp only at hy
        unfold leastSquaresRow at hy
        cases row with
        | nil => simp at hy; simp [rowEntries, lsResult, hy]
        | cons e row =>
          simp only [List.isEmpty_cons] at hy
          cases he : rowEntries .undefinedBehaviour Y (e :: row) with
          | error e' => rw [he] at hy; cases hy
          | ok es =>
            rw [he] at hy
            have hne : es.isEmpty = false := by
              have := (rowEntries_ok_iff he).2
              rw [this]; rfl
            simp only [he, lsResult, hne]
            simp only [bind, Except.bind] at hy
            cases hs : S.solve (linearEquation G reg es).1 (linearEquation G reg es).2 with
            | none => rw [hs] at hy; cases hy
            | some z => rw [hs] at hy; cases hy; simp
    rw [this]
  · intro u j hu
    refine h2 (u, j) ?_
    intro th t ht (he : u = t)
    have : t < users := (hq.covers t).mpr ⟨th, ht⟩
    omega

/-- **C15** (conjugate gradient solver, which also reads the rows it writes). -/
theorem C15_least_squares_cg (tol : R) (steps : Nat) (C : SpRows R) (X Y : List (Vec f R)) (reg : R)
    (X' : List (Vec f R)) (h : leastSquaresCG tol steps C X Y reg = .ok X')
    (queue : Th → List Nat) (hq : Assignment X.length queue) (w : List (Th × CGInstr f R))
    (hw : IsSchedule (fun u => cgProg steps (taskEntries C Y u) u) queue w)
    (σ : Th → CGScratch f R) (m : Nat × Fin f → R)
    (hm : ∀ (u : Nat) x j, X[u]? = some x → m (u, j) = x j) :
    let res := execInterleaved (cgAct (regularised (gram Y) reg) tol) w σ m
    (∀ (u : Nat) x j, X'[u]? = some x → res.2 (u, j) = x j) ∧
      ∀ u j, X.length ≤ u → res.2 (u, j) = m (u, j) := by
  intro res
  obtain ⟨hlen, hrow⟩ := mapM_ok_iff h
  have hlen' : X'.length = X.length := by simpa using hlen
  obtain ⟨h1, h2⟩ := parallel_for
    (cg_taskSpec (regularised (gram Y) reg) tol steps (taskEntries C Y)) queue hq.nodup
    hq.disjoint w hw σ (fun _ => trivial) m
  constructor
  · intro u x j hx
    have hu : u < X.length := by rw [← hlen']; exact (List.getElem?_eq_some_iff.mp hx).1
    obtain ⟨th, hth⟩ := (hq.covers u).mp hu
    show (execInterleaved _ w σ m).2 (u, j) = x j
    rw [h1 th u hth (u, j) rfl]
    obtain ⟨y, hy, hy'⟩ := hrow u (X[u], u) (by simp [hu])
    rw [hx] at hy'; cases hy'
    have hmu : (fun j => m (u, j)) = X[u] :=
      funext fun j => hm u X[u] j (List.getElem?_eq_getElem hu)
    have : cgResult (regularised (gram Y) reg) tol steps (taskEntries C Y u) X[u] = x := by
      unfold taskEntries
      simp only at hy
      cases hC : C[u]? with
      | none => rw [hC] at hy; cases hy
      | some row =>
        rw [hC] at hy
        simp only at hy
        unfold cgRow at hy
        cases row with
        | nil => simp at hy; simp [rowEntries, cgResult, hy]
        | cons e row =>
          simp only [List.isEmpty_cons] at hy
          cases he : rowEntries .undefinedBehaviour Y (e :: row) with
          | error e' => rw [he] at hy; cases hy
          | ok es =>
            rw [he] at hy
            have hne : es.isEmpty = false := by
              have := (rowEntries_ok_iff he).2
              rw [this]; rfl
            cases hy
            simp only [he, cgResult, hne]; simp
    simp only [hmu, this]
  · intro u j hu
    refine h2 (u, j) ?_
    intro th t ht (he : u = t)
    have : t < X.length := (hq.covers t).mpr ⟨th, ht⟩
    omega

/-- **C15** (top-k blocks).  The writes of the blocks, distributed over any threads and interleaved in
any way, leave the output arrays as the sequential loop does. -/
theorem C15_topk (H : HeapImpl (R × Nat) pairLt) (neginf : R) (items query : List (Vec f R))
    (k : Nat) (norms : Option (List R)) (fq : Option (List (List Nat))) (fi : Option (List Nat))
    (bs : List (List (Nat × (Nat × R))))
    (hb : topkBatches H neginf items query k norms fq fi = .ok bs)
    (ths : List Th) (hths : ths.Nodup) (queue : Th → List Nat)
    (hqueue : (ths.flatMap queue).Perm (List.range bs.length))
    (w : List (Th × (Nat × (Nat × R)))) (hwt : ∀ p ∈ w, p.1 ∈ ths)
    (hw : IsSchedule (fun b => bs[b]?.getD []) queue w) :
    ∃ mem, topkFlat H neginf items query k norms fq fi = .ok mem ∧
      writeAll (topkInit query.length k) (w.map Prod.snd) = .ok mem := by
  refine C03_topk_schedule H neginf items query k norms fq fi bs hb (w.map Prod.snd) ?_
  refine (perm_streams ths hths w hwt).trans ?_
  have e1 : (ths.flatMap fun t => streamOf t w) =
      (ths.flatMap queue).flatMap fun b => bs[b]?.getD [] := by
    rw [List.flatMap_assoc]
    exact List.flatMap_congr fun t _ => hw t
  rw [e1]
  refine (hqueue.flatMap_right _).trans (List.Perm.of_eq ?_)
  rw [List.flatMap_def]
  congr 1
  apply List.ext_getElem?
  intro i
  by_cases hi : i < bs.length
  · simp [hi]
  · simp [hi]

/-- **C15** (nearest-neighbour rows; partial: while `item_count * K` fits, see C24).  Whatever the
threads, the assignment of items to threads and the interleaving of `add`s, enumerations and stores, the
output arrays end up as after the sequential loop, and nothing behind them is written.  `σ` only needs a
fresh accumulator per thread; the heap buffer may hold anything. -/
theorem C15_all_pairs_partial (H : HeapImpl (R × Nat) pairLt) (n K : Nat) (hK : 1 ≤ K)
    (hnK : n * K ≤ 2 ^ 31) (M : SpRows R) (hM : ∀ r ∈ M, ∀ e ∈ r, e.1 < n)
    (queue : Th → List Nat) (hq : Assignment n queue) (w : List (Th × KnnInstr R))
    (hw : IsSchedule (knnProg n K M) queue w) (σ : Th → KnnScratch R)
    (hσ : ∀ th, (σ th).acc = Accum.new n) (m : Nat → KnnCell R) (hm : ∀ a < n * K, m a = (0, 0, 0)) :
    ∃ cells, allPairsKnn H n K M = .ok cells ∧ cells.length = n * K ∧
      (∀ a c, cells[a]? = some c → (execInterleaved (knnAct H n K) w σ m).2 a = c) ∧
      ∀ a, n * K ≤ a → (execInterleaved (knnAct H n K) w σ m).2 a = m a := by
  have hlenh : ∀ i, i < n → (knnHeap H n K M (colOf n M i)).length ≤ K := by
    intro i hi
    obtain ⟨h, e1, hl, -, -⟩ := knnRow_ok H hK M hM _ (colOf_bound M hi)
    have hh : knnHeap H n K M (colOf n M i) = h := by unfold knnHeap; rw [e1]
    rw [hh]; exact hl
  obtain ⟨h1, h2⟩ := parallel_for (knn_taskSpec H hK hnK M hM) queue hq.nodup hq.disjoint w hw σ hσ m
  set b : Nat → List (KnnCell R) := fun i =>
    if i < n then slotBlock K i (knnHeap H n K M (colOf n M i)) else List.replicate K (0, 0, 0) with hb
  have hbl : ∀ i, (b i).length = K := by
    intro i
    simp only [hb]
    by_cases hi : i < n
    · rw [if_pos hi]
      have := hlenh i hi
      simp [slotBlock]; omega
    · rw [if_neg hi]; simp
  have hcells : ((List.range n).flatMap fun i => slotBlock K i (knnHeap H n K M (colOf n M i))) =
      (List.range n).flatMap b :=
    List.flatMap_congr fun i hi => by simp only [hb]; rw [if_pos (List.mem_range.mp hi)]
  have hclen : ((List.range n).flatMap b).length = n * K := by
    rw [List.length_flatMap]
    have : (List.range n).map (fun i => (b i).length) = List.replicate n K := by
      rw [List.eq_replicate_iff]; simp [hbl]
    rw [this]; simp
  refine ⟨_, allPairsKnn_eq H hK hnK M hM, by rw [hcells, hclen], ?_, ?_⟩
  · intro a c hc
    rw [hcells] at hc
    have ha : a < n * K := by
      have := (List.getElem?_eq_some_iff.mp hc).1
      rwa [hclen] at this
    have hi : a / K < n := Nat.div_lt_of_lt_mul (by rw [Nat.mul_comm]; exact ha)
    have hp : a % K < K := Nat.mod_lt _ (by omega)
    have hae : K * (a / K) + a % K = a := Nat.div_add_mod a K
    obtain ⟨th, hth⟩ := (hq.covers (a / K)).mp hi
    rw [h1 th _ hth a ⟨a % K, hp, hae.symm⟩]
    have hget := getElem?_blocks K b hbl n (a / K) (a % K) hi hp
    rw [hae, hc] at hget
    unfold knnEffect
    rw [if_pos hi]
    have hsub : a - K * (a / K) = a % K := by omega
    rw [hsub]
    simp only [hb, if_pos hi] at hget
    unfold slotBlock at hget
    cases hx : (knnHeap H n K M (colOf n M (a / K)))[a % K]? with
    | none =>
      rw [List.getElem?_append_right (by simpa using List.getElem?_eq_none_iff.mp hx)] at hget
      simp only
      have := (List.mem_replicate.mp (List.mem_of_getElem? hget.symm)).2
      rw [this]; exact hm a ha
    | some x =>
      have hlt := (List.getElem?_eq_some_iff.mp hx).1
      rw [List.getElem?_append_left (by simpa using hlt), List.getElem?_map, hx] at hget
      simp only [Option.map_some, Option.some.injEq] at hget
      exact hget.symm
  · intro a ha
    refine h2 a ?_
    rintro th t ht ⟨p, hp, rfl⟩
    have : t < n := (hq.covers t).mpr ⟨th, ht⟩
    have := slot_lt this hp
    omega

/-- Two threads, two rows, alternating instructions; the hypotheses of `C15_least_squares` hold. -/
example :
    let C : SpRows Rat := [[(0, 1)], [(0, 2)]]
    let Y : List (Vec 1 Rat) := [fun _ => 1]
    let queue : Bool → List Nat := fun t => if t then [1] else [0]
    let p := fun u => lsProg (taskEntries C Y u) u
    let w := (List.zip (p 0) (p 1)).flatMap fun q => [(false, q.1), (true, q.2)]
    Assignment 2 queue ∧ IsSchedule p queue w ∧ w.length = 10 ∧
      ∃ X', leastSquares (exactSolver 1 Rat) C [0, 0] Y 1 = .ok X' := by
  intro C Y queue p w
  refine ⟨⟨by decide, ?_, ?_⟩, ?_, rfl, ?_⟩
  · intro t t' h u hu
    cases t <;> cases t' <;> simp_all [queue]
  · intro u
    simp only [queue]
    constructor
    · intro h
      rcases (by omega : u = 0 ∨ u = 1) with rfl | rfl
      · exact ⟨false, by simp⟩
      · exact ⟨true, by simp⟩
    · rintro ⟨t, ht⟩; cases t <;> simp at ht <;> omega
  · intro t; cases t <;> rfl
  · obtain ⟨X', e, _⟩ := C11_least_squares (exactSolver 1 Rat) C [0, 0] Y (by simp [C]) (by
      intro row hrow
      simp only [C, List.mem_cons, List.not_mem_nil, or_false] at hrow
      rcases hrow with rfl | rfl <;> exact ⟨by simp, by simp [Y]⟩) (reg := 1) (by norm_num)
    exact ⟨X', e⟩

/-- Two threads, one item each, alternating instructions: both result slots are filled. -/
example :
    let M : SpRows Rat := [[(0, 1), (1, 2)]]
    let queue : Bool → List Nat := fun t => if t then [1] else [0]
    let p := knnProg 2 1 M
    let w := (List.zip (p 0) (p 1)).flatMap fun q => [(false, q.1), (true, q.2)]
    let m := (execInterleaved (knnAct insertionHeap 2 1) w (fun _ => ⟨Accum.new 2, []⟩)
      fun _ => (0, 0, 0)).2
    Assignment 2 queue ∧ IsSchedule p queue w ∧ w.length = 12 ∧ (m 0, m 1) = ((0, 1, 2), (1, 1, 4)) := by
  intro M queue p w m
  refine ⟨⟨by decide, ?_, ?_⟩, ?_, by decide +kernel, by decide +kernel⟩
  · intro t t' h u hu
    cases t <;> cases t' <;> simp_all [queue]
  · intro u
    simp only [queue]
    constructor
    · intro h
      rcases (by omega : u = 0 ∨ u = 1) with rfl | rfl
      · exact ⟨false, by simp⟩
      · exact ⟨true, by simp⟩
    · rintro ⟨t, ht⟩; cases t <;> simp at ht <;> omega
  · intro t; cases t <;> rfl

end Implicit
