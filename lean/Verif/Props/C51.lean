import Verif.Props.C23
import Verif.Props.C43
import Verif.Lemmas.KnnScorer

/-!
# C51 — item-item similar_items ranks the stored neighbours
-/

set_option linter.unusedSectionVars false

namespace Implicit

variable {R : Type} [LinearOrder R] [Field R]

/-- A cell of a row without repeated columns is the stored value. -/
theorem cell_of_mem : ∀ {row : List (Nat × R)}, (row.map Prod.fst).Nodup →
    ∀ {p : Nat × R}, p ∈ row → Spec.cell row p.1 = p.2
  | (i, v) :: es, hnd, p, hp => by
    rw [List.map_cons, List.nodup_cons] at hnd
    have hz : ∀ (l : List (Nat × R)) (j : Nat), j ∉ l.map Prod.fst → Spec.sumAt l j = 0 := by
      intro l
      induction l with
      | nil => intro j _; rfl
      | cons e l ih =>
        intro j hj
        rw [List.map_cons, List.mem_cons, not_or] at hj
        obtain ⟨a, b⟩ := e
        unfold Spec.sumAt
        rw [if_neg (fun h => hj.1 h.symm), ih j hj.2, add_zero]
    unfold Spec.cell Spec.sumAt
    rcases List.mem_cons.mp hp with rfl | hp
    · rw [if_pos rfl, hz es i hnd.1, add_zero]
    · have : i ≠ p.1 := fun h => hnd.1 (h ▸ List.mem_map.mpr ⟨p, hp, rfl⟩)
      rw [if_neg this, zero_add]
      exact cell_of_mem hnd.2 hp

/-- Sorting by descending score and keeping the first `N`, whatever the order of equal scores. -/
theorem argsortDesc_ranking (A : ArgSort R) (N : Nat) (l : List (Nat × R))
    (hnd : (l.map Prod.fst).Nodup) (score : Nat → Option R) (hs : ∀ p ∈ l, score p.1 = some p.2) :
    ∃ out, argsortDesc A N (intRow l) = intRow out ∧
      Spec.IsRanking N (fun j => j ∈ l.map Prod.fst) score out := by
  have hperm := (List.reverse_perm _).trans (A.perm (intRow l))
  have hsorted : (A.sort (intRow l)).reverse.Pairwise fun a b => b.2 ≤ a.2 :=
    List.pairwise_reverse.mpr (A.sorted (intRow l))
  set full := (A.sort (intRow l)).reverse.map fun p : Int × R => (p.1.toNat, p.2) with hfull
  have hback : intRow full = (A.sort (intRow l)).reverse := by
    have key : ∀ q : List (Int × R), (∀ p ∈ q, 0 ≤ p.1) →
        intRow (q.map fun p : Int × R => (p.1.toNat, p.2)) = q := by
      intro q hq
      unfold intRow
      rw [List.map_map]
      conv_rhs => rw [← List.map_id q]
      refine List.map_congr_left fun p hp => ?_
      have := hq p hp
      simp [this]
    refine key _ fun p hp => ?_
    obtain ⟨q, -, rfl⟩ := List.mem_map.mp (hperm.mem_iff.mp hp)
    simp
  have hfp : full.Perm l := by
    have h := hperm.map fun p : Int × R => (p.1.toNat, p.2)
    have e : (intRow l).map (fun p : Int × R => (p.1.toNat, p.2)) = l := by
      unfold intRow
      rw [List.map_map]
      conv_rhs => rw [← List.map_id l]
      exact List.map_congr_left fun p _ => by simp
    rwa [e] at h
  have hrank : Spec.IsRanking l.length (fun j => j ∈ l.map Prod.fst) score full := by
    have hids : ∀ j, j ∈ l.map Prod.fst → j ∈ full.map Prod.fst := fun j hj =>
      (hfp.map Prod.fst).mem_iff.mpr hj
    refine ⟨fun p hp => ?_, (hfp.map Prod.fst).nodup_iff.mpr hnd, ?_, by rw [hfp.length_eq],
      fun _ => hids, fun i s hi _ hni => absurd (hids i hi) hni⟩
    · have hp' := hfp.mem_iff.mp hp
      exact ⟨List.mem_map.mpr ⟨p, hp', rfl⟩, hs p hp'⟩
    · rw [hfull, List.pairwise_map]
      exact hsorted
  refine ⟨full.take N, ?_, ?_⟩
  · unfold argsortDesc
    rw [← hback]
    unfold intRow
    rw [List.map_take]
  · rcases Nat.le_total N l.length with h | h
    · exact hrank.take h
    · rw [List.take_of_length_le (by rw [hfp.length_eq]; exact h)]
      exact ⟨hrank.mem, hrank.distinct, hrank.sorted, hrank.atMost.trans h,
        fun _ i hi => (hfp.map Prod.fst).mem_iff.mpr hi, hrank.best⟩

/-- Entry for a valid item id. -/
theorem knnSimilarOne_valid (sim : SpRows R) (i : Nat)
    (row : List (Nat × R)) (hi : sim[i]? = some row) :
    ¬ ((sim.length : Int) ≤ (i : Int)) ∧ ¬ ((i : Int) < -(sim.length : Int)) ∧
      sim.getD (if (i : Int) < 0 then ((i : Int) + sim.length).toNat else (i : Int).toNat) [] = row := by
  have := (List.getElem?_eq_some_iff.mp hi).1
  refine ⟨by omega, by omega, ?_⟩
  rw [if_neg (by omega), List.getD_eq_getElem?_getD]
  simp [hi]

/-- **C51**.  Without restrictions: the `N` stored neighbours with the greatest similarity. -/
theorem C51_neighbours (A : ArgSort R) (lowest : R) (sim : SpRows R) (i N : Nat) (b : Bool)
    (row : List (Nat × R)) (hi : sim[i]? = some row) (hnd : (row.map Prod.fst).Nodup) :
    ∃ out, knnSimilarOne A lowest sim i N none none b = .ok (intRow out) ∧
      Spec.IsRanking N (Spec.Stored row) (fun j => some (Spec.cell row j)) out := by
  obtain ⟨h1, h2, h3⟩ := knnSimilarOne_valid sim i row hi
  obtain ⟨out, e, h⟩ := argsortDesc_ranking A N row hnd (fun j => some (Spec.cell row j))
    fun p hp => by rw [cell_of_mem hnd hp]
  refine ⟨out, ?_, ?_⟩
  · unfold knnSimilarOne
    simp only [if_neg h1, if_neg h2, h3, e]
  · have : Spec.Stored row = fun j => j ∈ row.map Prod.fst := by
      funext j; simp [Spec.Stored]
    rw [this]; exact h

/-- **C51** (`filter_items`): the `N` best stored neighbours outside the filter; at most `N`. -/
theorem C51_filter (A : ArgSort R) (lowest : R) (sim : SpRows R) (i N : Nat) (b : Bool) (F : List Int)
    (row : List (Nat × R)) (hi : sim[i]? = some row) (hnd : (row.map Prod.fst).Nodup) :
    ∃ out, knnSimilarOne A lowest sim i N (some F) none b = .ok (intRow out) ∧
      Spec.IsRanking N (fun j => Spec.Stored row j ∧ (j : Int) ∉ F) (fun j => some (Spec.cell row j))
        out := by
  obtain ⟨h1, h2, h3⟩ := knnSimilarOne_valid sim i row hi
  have hsub := (List.filter_sublist (l := row) (p := fun q => !F.contains (q.1 : Int)))
  obtain ⟨out, e, h⟩ := argsortDesc_ranking A N (row.filter fun q => !F.contains (q.1 : Int))
    (hnd.sublist (hsub.map _)) (fun j => some (Spec.cell row j))
    fun p hp => by rw [cell_of_mem hnd (hsub.subset hp)]
  refine ⟨out, ?_, ?_⟩
  · unfold knnSimilarOne
    simp only [if_neg h1, if_neg h2, h3]
    rw [← e]
    unfold intRow
    rw [List.filter_map]
    rfl
  · have : (fun j : Nat => Spec.Stored row j ∧ (j : Int) ∉ F) =
        fun j => j ∈ (row.filter fun q => !F.contains (q.1 : Int)).map Prod.fst := by
      funext j
      simp [Spec.Stored]
    rw [this]; exact h

/-- **C51** (`items`, an array of different non-negative ids): the `N` best of the requested items; one
that is not a stored neighbour counts with the lowest value. -/
theorem C51_items (A : ArgSort R) (lowest : R) (sim : SpRows R) (i N : Nat) (S : List Nat)
    (hS : S.Nodup) (row : List (Nat × R)) (hi : sim[i]? = some row) (hnd : (row.map Prod.fst).Nodup)
    [DecidablePred (Spec.Stored row)] :
    ∃ out, knnSimilarOne A lowest sim i N none (some (S.map Int.ofNat)) true = .ok (intRow out) ∧
      Spec.IsRanking N (· ∈ S)
        (fun j => some (if Spec.Stored row j then Spec.cell row j else lowest)) out := by
  obtain ⟨h1, h2, h3⟩ := knnSimilarOne_valid sim i row hi
  set kept := row.filter fun q => S.contains q.1 with hkept
  set missing := S.filter fun j => !(kept.map Prod.fst).contains j with hmiss
  have hsub := (List.filter_sublist (l := row) (p := fun q => S.contains q.1))
  have hst : ∀ j, Spec.Stored row j ↔ j ∈ row.map Prod.fst := fun j => by simp [Spec.Stored]
  have hki : ∀ j, j ∈ kept.map Prod.fst ↔ Spec.Stored row j ∧ j ∈ S := by
    intro j; rw [hkept]; simp [Spec.Stored]
  have hmi : ∀ j, j ∈ missing ↔ j ∈ S ∧ j ∉ kept.map Prod.fst := by
    intro j; rw [hmiss, List.mem_filter]
    simp only [Bool.not_eq_true', ← Bool.not_eq_true, List.contains_iff_mem]
  have hfst : (missing.map fun j => (j, lowest)).map Prod.fst = missing := by
    rw [List.map_map]; exact List.map_id missing
  obtain ⟨out, e, h⟩ := argsortDesc_ranking A N (kept ++ missing.map fun j => (j, lowest)) (by
      rw [List.map_append, hfst]
      refine List.nodup_append.mpr ⟨hnd.sublist (hsub.map _), hS.filter _, ?_⟩
      rintro a ha c hc rfl
      exact ((hmi a).mp hc).2 ha)
    (fun j => some (if Spec.Stored row j then Spec.cell row j else lowest)) (by
      intro p hp
      rcases List.mem_append.mp hp with hp | hp
      · have := hsub.subset hp
        rw [if_pos ((hst _).mpr (List.mem_map.mpr ⟨p, this, rfl⟩)), cell_of_mem hnd this]
      · obtain ⟨j, hj, rfl⟩ := List.mem_map.mp hp
        obtain ⟨a, c⟩ := (hmi j).mp hj
        rw [if_neg (fun hs => c ((hki j).mpr ⟨hs, a⟩))])
  refine ⟨out, ?_, ?_⟩
  · have hk : ((intRow row).filter fun p => (S.map Int.ofNat).contains p.1) = intRow kept := by
      unfold intRow
      rw [List.filter_map, hkept]
      congr 1
      refine List.filter_congr fun p _ => ?_
      simp only [Function.comp_apply]
      rw [Bool.eq_iff_iff, List.contains_iff_mem, List.contains_iff_mem]
      simp
    have hm : (((S.map Int.ofNat).filter fun j => !((intRow kept).map Prod.fst).contains j).map
        fun j => (j, lowest)) = intRow (missing.map fun j => (j, lowest)) := by
      rw [hmiss, List.filter_map]
      have hf : (S.filter ((fun j => !((intRow kept).map Prod.fst).contains j) ∘ Int.ofNat)) =
          S.filter fun j => !(kept.map Prod.fst).contains j := by
        refine List.filter_congr fun j _ => ?_
        simp only [Function.comp_apply]
        congr 1
        rw [Bool.eq_iff_iff, List.contains_iff_mem, List.contains_iff_mem]
        simp [intRow]
      rw [hf]
      unfold intRow
      rw [List.map_map, List.map_map]
      rfl
    unfold knnSimilarOne
    simp only [if_neg h1, if_neg h2, h3, Bool.not_true, Bool.false_eq_true, if_false, hk, hm]
    rw [← e]
    unfold intRow
    rw [List.map_append]
  · have : (fun j : Nat => j ∈ S) =
        fun j => j ∈ (kept ++ missing.map fun j => (j, lowest)).map Prod.fst := by
      funext j
      rw [List.map_append, hfst, List.mem_append, hki, hmi, hki]
      refine propext ⟨fun h => ?_, ?_⟩
      · by_cases hs : Spec.Stored row j
        · exact Or.inl ⟨hs, h⟩
        · exact Or.inr ⟨h, fun hc => hs hc.1⟩
      · rintro (h | h)
        · exact h.2
        · exact h.1
    rw [this]; exact h

/-- The best `N` of the best `K` are the best `N`. -/
theorem _root_.Implicit.Spec.IsRanking.trans {N K : Nat} (hNK : N ≤ K) {E : Nat → Prop}
    {score score' : Nat → Option R} {big out : List (Nat × R)} (hbig : Spec.IsRanking K E score big)
    (hs : ∀ p ∈ big, score' p.1 = some p.2)
    (hout : Spec.IsRanking N (fun j => j ∈ big.map Prod.fst) score' out) :
    Spec.IsRanking N E score out := by
  have hmem : ∀ p ∈ out, p ∈ big := by
    intro p hp
    obtain ⟨h1, h2⟩ := hout.mem p hp
    obtain ⟨q, hq, hqp⟩ := List.mem_map.mp h1
    have := hs q hq
    rw [hqp, h2, Option.some.injEq] at this
    have : p = q := Prod.ext hqp.symm this
    rwa [this]
  refine ⟨fun p hp => hbig.mem p (hmem p hp), hout.distinct, hout.sorted, hout.atMost, ?_, ?_⟩
  · intro hlt i hi
    have hc := hout.complete hlt
    apply hc
    refine hbig.complete ?_ i hi
    have hsub : big.map Prod.fst ⊆ out.map Prod.fst := fun j hj => hc j hj
    have := (hbig.distinct.subperm hsub).length_le
    simp only [List.length_map] at this
    omega
  · intro i s hi hsc hni p hp
    by_cases hb : i ∈ big.map Prod.fst
    · obtain ⟨q, hq, rfl⟩ := List.mem_map.mp hb
      have h2 := (hbig.mem q hq).2
      rw [hsc, Option.some.injEq] at h2
      exact hout.best q.1 s hb (by rw [hs q hq, h2]) hni p hp
    · exact hbig.best i s hi hsc hb p (hmem p hp)

/-- **C51** (after `fit`; partial for item 0, see C23).  With `N ≤ K`, `similar_items` of a fitted model
lists the `N` co-rated items with the greatest inner product of their columns. -/
theorem C51_fitted_partial (H : HeapImpl (R × Nat) pairLt) (A : ArgSort R) (lowest : R) (n K : Nat)
    (hK : 1 ≤ K) (hnK : n * K ≤ 2 ^ 31) (M : SpRows R) (hM : ∀ r ∈ M, ∀ e ∈ r, e.1 < n) :
    ∃ sim, knnFit H n K M false = .ok sim ∧ ∀ i N, 0 < i → i < n → N ≤ K →
      ∃ out, knnSimilarOne A lowest sim i N none none false = .ok (intRow out) ∧
        Spec.IsRanking N (Spec.CoRated M i) (fun j => some (Spec.similarity M i j)) out := by
  obtain ⟨sim, e, hlen, h⟩ := C23_rows_partial H n K hK hnK M hM
  refine ⟨sim, e, fun i N h0 hi hN => ?_⟩
  obtain ⟨row, big, hr, hp, hrank, hiff⟩ := h i hi
  have hiff := hiff (Or.inl (by omega))
  have hnd : (row.map Prod.fst).Nodup := hp.imp fun hab => Nat.ne_of_lt hab
  obtain ⟨out, e', ho⟩ := C51_neighbours A lowest sim i N false row hr hnd
  refine ⟨out, e', hrank.trans hN (score' := fun j => some (Spec.cell row j))
    (fun p hp => by rw [cell_of_mem hnd ((hiff p).mpr hp)]) ?_⟩
  have : Spec.Stored row = fun j => j ∈ big.map Prod.fst := by
    funext j
    simp [Spec.Stored, hiff]
  rwa [this] at ho

/-- **C51** (errors).  `recalculate_item` is refused, `items` with `filter_items` raises `ValueError`, an
id beyond the model gives no results. -/
theorem C51_errors (A : ArgSort R) (lowest lowest32 : R) (sim : SpRows R) (ids : Ids) (N : Nat)
    (F S : Option (List Int)) (b : Bool) :
    knnSimilar A lowest lowest32 sim ids N true F S b = .error .notImplemented ∧
    (∀ (i : Int) (F' S' : List Int),
      knnSimilarOne A lowest sim i N (some F') (some S') b = .error .valueError) ∧
    ∀ i : Int, (sim.length : Int) ≤ i → (F = none ∨ S = none) →
      knnSimilarOne A lowest sim i N F S b = .ok [] := by
  refine ⟨rfl, fun i F' S' => rfl, fun i hi h => ?_⟩
  unfold knnSimilarOne
  cases F with
  | none => simp only [if_pos hi]
  | some F =>
    cases S with
    | none => simp only [if_pos hi]
    | some S => simp at h

/-- **C51** (batch).  Each row is the padded single answer. -/
theorem C51_batch (A : ArgSort R) (lowest lowest32 : R) (sim : SpRows R) (is : List Nat) (N : Nat)
    (F S : Option (List Int)) (b : Bool) (single : Nat → List (Int × R))
    (h : ∀ i ∈ is, knnSimilarOne A lowest sim i N F S b = .ok (single i)) :
    ∃ answers, knnSimilar A lowest lowest32 sim (.many is) N false F S b = .ok (.many answers) ∧
      answers.length = is.length ∧ ∀ (k : Nat) i answer, is[k]? = some i → answers[k]? = some answer →
        Spec.IsPaddedRow lowest32 N (single i) answer := by
  obtain ⟨answers, e, hl, hr⟩ := C43_batch lowest32 N (fun (_ : Unit) (i : Nat) _ =>
        (knnSimilarOne A lowest sim i N F S b, ())) () (fun _ _ => rfl) none is
    (fun rs hr => by cases hr) (fun k => single (is.getD k 0)) (by
      intro k i hk
      rw [List.getD_eq_getElem?_getD, hk]
      exact h i (List.mem_of_getElem? hk))
  refine ⟨answers, ?_, hl, ?_⟩
  · unfold knnSimilar
    simp only [Bool.false_eq_true, if_false, e]
    rfl
  · intro k i answer hk ha
    have := hr k answer ha
    rw [List.getD_eq_getElem?_getD, hk] at this
    exact this

/-- **C51 is violated**: the documentation allows any array-like for `items`, but a list cannot be
indexed with the mask of line 139 and the call raises `TypeError`, for every model and item. -/
theorem C51_list_violated (A : ArgSort R) (lowest : R) (sim : SpRows R) (i : Nat) (N : Nat)
    (S : List Int) (hi : i < sim.length) :
    knnSimilarOne A lowest sim i N none (some S) false = .error .typeError := by
  unfold knnSimilarOne
  simp only [if_neg (show ¬ ((sim.length : Int) ≤ (i : Int)) by omega),
    if_neg (show ¬ ((i : Int) < -(sim.length : Int)) by omega), Bool.not_false, if_true]

/-- Sorting by insertion is one possible `np.argsort`. -/
def insertionArgSort : ArgSort Rat where
  sort l := l.insertionSort fun a b => a.2 ≤ b.2
  perm l := List.perm_insertionSort _ l
  sorted l := by
    haveI : Std.Total (fun a b : Int × Rat => a.2 ≤ b.2) := ⟨fun a b => le_total a.2 b.2⟩
    haveI : IsTrans (Int × Rat) (fun a b => a.2 ≤ b.2) := ⟨fun a b c => le_trans⟩
    exact List.pairwise_insertionSort _ l

/-- Three neighbours, two asked for; with a filter; with `items`. -/
example :
    let sim : SpRows Rat := [[(0, 4), (1, 2), (2, 3)], [(0, 2)], []]
    knnSimilarOne insertionArgSort (-1000) sim 0 2 none none false = .ok [(0, 4), (2, 3)] ∧
    knnSimilarOne insertionArgSort (-1000) sim 0 2 (some [0]) none false = .ok [(2, 3), (1, 2)] ∧
    knnSimilarOne insertionArgSort (-1000) sim 1 2 none (some [2, 0]) true =
      .ok [(0, 2), (2, -1000)] := by
  decide +kernel

end Implicit
