import Mathlib.Tactic.NormNum
import Mathlib.Tactic.Linarith
import Verif.Lemmas.Mask
import Verif.Model.MFBase

set_option linter.unusedSectionVars false

namespace Implicit

variable {R : Type} [LinearOrder R]

/-- Selection without masks ranks all positions. -/
theorem plain_selection (H : HeapImpl (R × Nat) pairLt) {k : Nat} (hk : 1 ≤ k) (scores : List R) :
    Spec.IsRanking k (fun j => j < scores.length) (fun j => scores[j]?)
      ((sel H k scores).map Prod.swap) ∧ (sel H k scores).length = min k scores.length := by
  have htop := sel_topk H hk scores
  set out := sel H k scores with hout
  have hfst : (out.map Prod.swap).map Prod.fst = out.map Prod.snd := by
    rw [List.map_map]; rfl
  refine ⟨⟨?_, ?_, ?_, ?_, ?_, ?_⟩, htop.length⟩
  · intro p hp
    obtain ⟨q, hq, rfl⟩ := List.mem_map.mp hp
    have h3 := htop.faithful q hq
    exact ⟨(List.getElem?_eq_some_iff.mp h3).1, h3⟩
  · rw [hfst]; exact htop.distinct
  · rw [List.pairwise_map]
    refine htop.sorted.imp ?_
    rintro a b (h | h)
    · exact h.le
    · exact h.1.ge
  · rw [List.length_map, htop.length]; exact min_le_left _ _
  · intro hlt j hj
    rw [hfst]
    by_contra hnot
    rw [List.length_map] at hlt
    have hlen : out.length = scores.length := by
      have := htop.length; omega
    have hsub : (out.map Prod.snd) ⊆ (List.range scores.length).erase j := by
      intro x hx
      obtain ⟨p, hp, rfl⟩ := List.mem_map.mp hx
      have h1 := htop.faithful p hp
      have h2 := (List.getElem?_eq_some_iff.mp h1).1
      exact (List.mem_erase_of_ne (fun h : p.2 = j => hnot (by rw [← h]; exact hx))).mpr
        (List.mem_range.mpr h2)
    have := (List.subperm_of_subset htop.distinct hsub).length_le
    rw [List.length_erase_of_mem (List.mem_range.mpr hj)] at this
    simp at this
    omega
  · intro j s hj hs hnot p hp
    obtain ⟨q, hq, rfl⟩ := List.mem_map.mp hp
    rw [hfst] at hnot
    exact htop.best q hq j s hs hnot

theorem mapM_ok_iff {α β ε : Type*} {g : α → Except ε β} : ∀ {l : List α} {r : List β},
    l.mapM g = .ok r → r.length = l.length ∧ ∀ (i : Nat) x, l[i]? = some x → ∃ y, g x = .ok y ∧ r[i]? = some y
  | [], r, h => by cases h; simp
  | x :: l, r, h => by
    rw [List.mapM_cons] at h
    cases hx : g x with
    | error e => rw [hx] at h; cases h
    | ok y =>
      cases hl : l.mapM g with
      | error e => rw [hx, hl] at h; cases h
      | ok ys =>
        rw [hx, hl] at h
        cases h
        obtain ⟨h1, h2⟩ := mapM_ok_iff hl
        refine ⟨by simp [h1], ?_⟩
        intro i z hz
        cases i with
        | zero => simp at hz; subst hz; exact ⟨y, hx, rfl⟩
        | succ i => exact h2 i z (by simpa using hz)

theorem mapM_map_ok {α β γ ε : Type*} {g : β → Except ε γ} {a : α → β} {h : α → γ} {l : List α}
    (hx : ∀ x ∈ l, g (a x) = .ok (h x)) : (l.map a).mapM g = .ok (l.map h) := by
  have := mapM_ok_of (g := fun x => g (a x)) (h := h) (l := l) hx
  rw [← this, List.mapM_map]; rfl

/-! ### gather -/

theorem gather_ok {α : Type} (l : List α) : ∀ (is : List Nat) (xs : List α),
    gather l is = .ok xs ↔ xs.length = is.length ∧ ∀ (j i : Nat), is[j]? = some i → ∃ x, l[i]? = some x ∧ xs[j]? = some x
  | [], xs => by
    constructor
    · intro h; cases h; simp
    · rintro ⟨h, _⟩; have := List.length_eq_zero_iff.mp h; subst this; rfl
  | i :: is, xs => by
    unfold gather
    constructor
    · intro h
      split at h
      · cases h
      · rename_i x hx
        cases hr : gather l is with
        | error e => rw [hr] at h; cases h
        | ok ys =>
          rw [hr] at h; cases h
          obtain ⟨h1, h2⟩ := (gather_ok l is ys).mp hr
          refine ⟨by simp [h1], ?_⟩
          intro j i' hj
          cases j with
          | zero => simp at hj; subst hj; exact ⟨x, hx, rfl⟩
          | succ j => simpa using h2 j i' (by simpa using hj)
    · rintro ⟨h1, h2⟩
      obtain ⟨x, hx, hx'⟩ := h2 0 i (by simp)
      match xs, hx' with
      | y :: ys, hx' =>
        simp at hx'; subst hx'
        have : gather l is = .ok ys := by
          refine (gather_ok l is ys).mpr ⟨by simpa using h1, ?_⟩
          intro j i' hj
          simpa using h2 (j + 1) i' (by simpa using hj)
        rw [hx, this]; rfl

theorem gather_one {α : Type} {l : List α} {i : Nat} {x : α} (h : l[i]? = some x) :
    gather l [i] = .ok [x] := by
  unfold gather; rw [h]; rfl

theorem gather_one_iff {α : Type} {l : List α} {i : Nat} {xs : List α} (h : gather l [i] = .ok xs) :
    ∃ x, l[i]? = some x ∧ xs = [x] := by
  unfold gather at h
  split at h
  · cases h
  · rename_i x hx; cases h; exact ⟨x, hx, rfl⟩

section
variable [Field R] {f : Nat}

/-- Positions overwritten in query row `idx`. -/
def badAt (fq : Option (List (List Nat))) (fi : Option (List Nat)) (idx : Nat) : List Nat :=
  ((fq.bind fun rows => rows[idx]?).getD []) ++ fi.getD []

/-- The filters of query row `idx` only mention positions below `n`. -/
structure FiltersOk (n : Nat) (fq : Option (List (List Nat))) (fi : Option (List Nat)) (idx : Nat) :
    Prop where
  query : ∀ rows, fq = some rows → ∃ liked, rows[idx]? = some liked ∧ ∀ i ∈ liked, i < n
  items : ∀ l, fi = some l → ∀ i ∈ l, i < n

theorem maskedRow_eq (neginf : R) {items : List (Vec f R)} {norms : Option (List R)}
    {fq : Option (List (List Nat))} {fi : Option (List Nat)} {idx : Nat} {q : Vec f R}
    {scores : List R} (hs : scoreRow items norms q = .ok scores)
    (hf : FiltersOk scores.length fq fi idx) :
    maskedRow neginf items norms fq fi idx q = .ok (mask neginf (badAt fq fi idx) scores) := by
  unfold maskedRow
  rw [hs]
  simp only [bind, Except.bind, pure, Except.pure]
  have hlen := length_mask neginf
  match fq, hf with
  | none, hf =>
    simp only
    match fi, hf with
    | none, hf => simp [badAt, mask_nil]
    | some l, hf =>
      simp only [badAt, Option.bind_none, Option.getD_none, List.nil_append, Option.getD_some]
      rw [assignAt_ok]
      exact hf.items l rfl
  | some rows, hf =>
    obtain ⟨liked, e, hl⟩ := hf.query rows rfl
    simp only [e]
    rw [assignAt_ok neginf liked scores hl]
    simp only
    match fi, hf with
    | none, hf => simp [badAt, e]
    | some l, hf =>
      simp only
      rw [assignAt_ok _ _ _ (by rw [hlen]; exact hf.items l rfl), mask_mask]
      simp [badAt, e]

theorem maskedRow_ok_inv {neginf : R} {items : List (Vec f R)} {norms : Option (List R)}
    {fq : Option (List (List Nat))} {fi : Option (List Nat)} {idx : Nat} {q : Vec f R}
    {r : List R} (h : maskedRow neginf items norms fq fi idx q = .ok r) :
    ∃ scores, scoreRow items norms q = .ok scores ∧ FiltersOk scores.length fq fi idx := by
  unfold maskedRow at h
  cases hs : scoreRow items norms q with
  | error e => rw [hs] at h; cases h
  | ok scores =>
    refine ⟨scores, rfl, ?_⟩
    rw [hs] at h
    simp only [bind, Except.bind, pure, Except.pure] at h
    match fq, h with
    | none, h =>
      simp only at h
      match fi, h with
      | none, h => exact ⟨by simp, by simp⟩
      | some l, h => exact ⟨by simp, by intro l' e; cases e; exact assignAt_ok_iff _ _ _ _ h⟩
    | some rows, h =>
      simp only at h
      cases hr : rows[idx]? with
      | none => rw [hr] at h; cases h
      | some liked =>
        rw [hr] at h
        simp only at h
        cases ha : assignAt neginf liked scores with
        | error e => rw [ha] at h; cases h
        | ok r1 =>
          have hl := assignAt_ok_iff _ _ _ _ ha
          have hr1 := assignAt_ok neginf liked scores hl
          rw [ha] at hr1; cases hr1
          rw [ha] at h
          simp only at h
          refine ⟨by intro rows' e; cases e; exact ⟨liked, hr, hl⟩, ?_⟩
          match fi, h with
          | none, h => simp
          | some l, h =>
            intro l' e; cases e
            have := assignAt_ok_iff _ _ _ _ h
            rwa [length_mask] at this

theorem scoreRow_none (items : List (Vec f R)) (q : Vec f R) :
    scoreRow items none q = .ok (items.map (dot q)) := rfl

/-- No query rows: nothing is computed. -/
theorem topkBatches_nil (H : HeapImpl (R × Nat) pairLt) (neginf : R) (items : List (Vec f R))
    (k : Nat) (norms : Option (List R)) (fq : Option (List (List Nat))) (fi : Option (List Nat)) :
    topkBatches H neginf items [] k norms fq fi = .ok [] := by
  have h : numBatches 0 = 0 := by decide
  simp only [topkBatches, List.length_nil, h]
  rfl

theorem topkFlat_nil (H : HeapImpl (R × Nat) pairLt) (neginf : R) (items : List (Vec f R))
    (k : Nat) (norms : Option (List R)) (fq : Option (List (List Nat))) (fi : Option (List Nat)) :
    topkFlat H neginf items [] k norms fq fi = .ok (topkInit 0 k) := by
  unfold topkFlat
  rw [topkBatches_nil]
  rfl

theorem topk_nil (H : HeapImpl (R × Nat) pairLt) (neginf : R) (items : List (Vec f R))
    (k : Nat) (norms : Option (List R)) (fq : Option (List (List Nat))) (fi : Option (List Nat)) :
    topk H neginf items [] k norms fq fi = .ok [] := by
  unfold topk
  rw [topkFlat_nil]
  rfl

/-- The batches are only computed when all preconditions hold. -/
theorem topkBatches_ok_inv {H : HeapImpl (R × Nat) pairLt} {neginf : R} {items query : List (Vec f R)}
    {k : Nat} {norms : Option (List R)} {fq : Option (List (List Nat))} {fi : Option (List Nat)}
    {bs : List (List (Nat × (Nat × R)))}
    (hb : topkBatches H neginf items query k norms fq fi = .ok bs)
    (hq : query ≠ []) :
    1 ≤ k ∧ items ≠ [] ∧
    ∀ idx q, query[idx]? = some q → ∃ s, maskedRow neginf items norms fq fi idx q = .ok s := by
    have hbatch : ∀ start stop ws, topkBatch H neginf items query k norms fq fi start stop = .ok ws →
        1 ≤ k ∧ items ≠ [] ∧ ∀ idx q, start ≤ idx → idx < stop → query[idx]? = some q →
          ∃ s, maskedRow neginf items norms fq fi idx q = .ok s := by
      intro start stop ws hws
      unfold topkBatch at hws
      cases hm : (((query.drop start).take (stop - start)).zipIdx.mapM fun p =>
          maskedRow neginf items norms fq fi (start + p.2) p.1) with
      | error e => rw [hm] at hws; cases hws
      | ok rs =>
        rw [hm] at hws
        simp only [bind, Except.bind] at hws
        refine ⟨?_, ?_, ?_⟩
        · by_contra hk
          have : k = 0 := by omega
          rw [if_pos this] at hws; cases hws
        · intro hi
          subst hi
          simp only [List.length_nil, if_true] at hws
          split_ifs at hws
        · intro idx q h1 h2 hq'
          have := (mapM_ok_iff hm).2 (idx - start) (q, idx - start) (by
            rw [List.getElem?_zipIdx, List.getElem?_take, if_pos (by omega), List.getElem?_drop]
            have : start + (idx - start) = idx := by omega
            rw [this, hq']; simp)
          obtain ⟨y, hy, _⟩ := this
          have e : start + (idx - start) = idx := by omega
          rw [e] at hy
          exact ⟨y, hy⟩
    have hpos : 0 < query.length := List.length_pos_iff.mpr hq
    unfold topkBatches at hb
    simp only at hb
    split_ifs at hb with h1
    · cases h0 : topkBatch H neginf items query k norms fq fi 0 query.length with
      | error e => rw [h0] at hb; cases hb
      | ok ws =>
        obtain ⟨a, b, c⟩ := hbatch _ _ _ h0
        refine ⟨a, b, fun idx q hq' => c idx q (Nat.zero_le _) ?_ hq'⟩
        exact (List.getElem?_eq_some_iff.mp hq').1
    · have hrow : ∀ idx, idx < query.length → ∃ ws, topkBatch H neginf items query k norms fq fi
          (idx / topkBatchSize * topkBatchSize)
          (min (idx / topkBatchSize * topkBatchSize + topkBatchSize) query.length) = .ok ws := by
        intro idx hidx
        have hlt : idx / topkBatchSize < numBatches query.length := by
          unfold numBatches topkBatchSize
          split_ifs <;> omega
        obtain ⟨ws, e, _⟩ := (mapM_ok_iff hb).2 (idx / topkBatchSize) (idx / topkBatchSize) (by
          simp [hlt])
        exact ⟨ws, e⟩
      obtain ⟨ws0, e0⟩ := hrow 0 hpos
      obtain ⟨a, b, _⟩ := hbatch _ _ _ e0
      refine ⟨a, b, fun idx q hq' => ?_⟩
      have hidx := (List.getElem?_eq_some_iff.mp hq').1
      obtain ⟨ws, e⟩ := hrow idx hidx
      refine (hbatch _ _ _ e).2.2 idx q ?_ ?_ hq'
      · unfold topkBatchSize; omega
      · unfold topkBatchSize; omega

/-- `topk` never returns for a non-empty query unless all its preconditions hold. -/
theorem topk_ok_inv {H : HeapImpl (R × Nat) pairLt} {neginf : R} {items query : List (Vec f R)}
    {k : Nat} {norms : Option (List R)} {fq : Option (List (List Nat))} {fi : Option (List Nat)}
    {rows : List (List (Nat × R))} (h : topk H neginf items query k norms fq fi = .ok rows)
    (hq : query ≠ []) :
    1 ≤ k ∧ items ≠ [] ∧
    ∀ idx q, query[idx]? = some q → ∃ s, maskedRow neginf items norms fq fi idx q = .ok s := by
  unfold topk topkFlat at h
  cases hb : topkBatches H neginf items query k norms fq fi with
  | error e => rw [hb] at h; cases h
  | ok bs => exact topkBatches_ok_inv hb hq

end

end Implicit

namespace Implicit

variable {R : Type} [LinearOrder R] [Field R] {f : Nat}

theorem remapRow_none_mapM (rows : List (List (Nat × R))) :
    rows.mapM (remapRow none) = .ok rows := by
  have := mapM_ok_of (g := remapRow (R := R) none) (h := id) (l := rows) (fun _ _ => rfl)
  simpa using this

/-- How `recommend` computes its answer when all its preconditions hold. -/
theorem recommend_eq (H : HeapImpl (R × Nat) pairLt) (neginf : R) {m : Factors f R}
    {recalc : SpRows R → Except Err (List (Vec f R))} {userid : Ids} {userItems : Option (SpRows R)}
    {N N' : Nat} {filterLiked : Bool} {filterItems : Option PyFilter} {recalculate : Bool}
    {items : Option (List Int)} {X fac : List (Vec f R)} {its : Option (List Nat)}
    {S : Nat → List R} {T : Nat → List (Nat × R)}
    (hcheck : checkUserItems userid userItems (filterLiked || recalculate) = .ok ())
    (hX : userFactor m recalc userid userItems recalculate = .ok X)
    (hres : restrictItems m N filterItems items = .ok (N', fac, its))
    (hN : 1 ≤ N') (hfac : fac ≠ [])
    (hS : ∀ idx q, X[idx]? = some q → maskedRow neginf fac none
      (likedPositions filterLiked userItems its) (filterItems.map PyFilter.ids) idx q = .ok (S idx))
    (hT : ∀ r, r < X.length → remapRow its (padRow N' (sel H N' (S r))) = .ok (T r)) :
    recommend H neginf m recalc userid userItems N filterLiked filterItems recalculate items =
      packAnswer userid ((List.range X.length).map T) := by
  unfold recommend
  rw [hcheck, hX, hres]
  simp only [bind, Except.bind]
  rw [topk_eq H neginf hN hfac hS]
  simp only
  rw [mapM_map_ok (h := T) (fun r hr => hT r (List.mem_range.mp hr))]

theorem recommend_one (H : HeapImpl (R × Nat) pairLt) (neginf : R) {m : Factors f R}
    {recalc : SpRows R → Except Err (List (Vec f R))} {u : Nat} {userItems : Option (SpRows R)}
    {N N' : Nat} {filterLiked : Bool} {filterItems : Option PyFilter} {recalculate : Bool}
    {items : Option (List Int)} {x : Vec f R} {fac : List (Vec f R)} {its : Option (List Nat)}
    {s : List R} {t : List (Nat × R)}
    (hcheck : checkUserItems (.one u) userItems (filterLiked || recalculate) = .ok ())
    (hX : userFactor m recalc (.one u) userItems recalculate = .ok [x])
    (hres : restrictItems m N filterItems items = .ok (N', fac, its))
    (hN : 1 ≤ N') (hfac : fac ≠ [])
    (hS : maskedRow neginf fac none
      (likedPositions filterLiked userItems its) (filterItems.map PyFilter.ids) 0 x = .ok s)
    (hT : remapRow its (padRow N' (sel H N' s)) = .ok t) :
    recommend H neginf m recalc (.one u) userItems N filterLiked filterItems recalculate items =
      .ok (.one t) := by
  rw [recommend_eq H neginf hcheck hX hres hN hfac (S := fun _ => s) (T := fun _ => t)]
  · rfl
  · intro idx q hq
    have h0 := (List.getElem?_eq_some_iff.mp hq).1
    simp at h0; subst h0
    simp at hq; subst hq; exact hS
  · intro r _; exact hT

theorem userFactor_stored {m : Factors f R} {recalc : SpRows R → Except Err (List (Vec f R))}
    {u : Nat} {ui : Option (SpRows R)} {x : Vec f R} (hu : m.user[u]? = some x) :
    userFactor m recalc (.one u) ui false = .ok [x] := by
  simp [userFactor, Ids.toList, gather_one hu]

/-- Reading off every intermediate result of a successful `recommend`. -/
theorem recommend_ok_inv {H : HeapImpl (R × Nat) pairLt} {neginf : R} {m : Factors f R}
    {recalc : SpRows R → Except Err (List (Vec f R))} {userid : Ids} {userItems : Option (SpRows R)}
    {N : Nat} {filterLiked : Bool} {filterItems : Option PyFilter} {recalculate : Bool}
    {items : Option (List Int)} {ans : Answer R}
    (h : recommend H neginf m recalc userid userItems N filterLiked filterItems recalculate items =
      .ok ans) :
    ∃ X N' fac its rows rows',
      checkUserItems userid userItems (filterLiked || recalculate) = .ok () ∧
      userFactor m recalc userid userItems recalculate = .ok X ∧
      restrictItems m N filterItems items = .ok (N', fac, its) ∧
      topk H neginf fac X N' none (likedPositions filterLiked userItems its)
        (filterItems.map PyFilter.ids) = .ok rows ∧
      rows.mapM (remapRow its) = .ok rows' ∧
      packAnswer userid rows' = .ok ans := by
  unfold recommend at h
  cases h1 : checkUserItems userid userItems (filterLiked || recalculate) with
  | error e => rw [h1] at h; cases h
  | ok x1 =>
    rw [h1] at h
    cases h2 : userFactor m recalc userid userItems recalculate with
    | error e => rw [h2] at h; cases h
    | ok X =>
      rw [h2] at h
      cases h3 : restrictItems m N filterItems items with
      | error e => rw [h3] at h; cases h
      | ok t =>
        obtain ⟨N', fac, its⟩ := t
        rw [h3] at h
        simp only [bind, Except.bind] at h
        cases h4 : topk H neginf fac X N' none (likedPositions filterLiked userItems its)
            (filterItems.map PyFilter.ids) with
        | error e => rw [h4] at h; cases h
        | ok rows =>
          rw [h4] at h
          simp only at h
          cases h5 : rows.mapM (remapRow its) with
          | error e => rw [h5] at h; cases h
          | ok rows' =>
            rw [h5] at h
            exact ⟨X, N', fac, its, rows, rows', rfl, rfl, rfl, h4, h5, h⟩

theorem gather_length {α : Type} {l : List α} {is : List Nat} {xs : List α}
    (h : gather l is = .ok xs) : xs.length = is.length := ((gather_ok l is xs).mp h).1

/-- Only row `idx` of the filter matrix matters for query row `idx`. -/
theorem maskedRow_single (neginf : R) (items : List (Vec f R)) (norms : Option (List R))
    (fq fq' : Option (List (List Nat))) (fi : Option (List Nat)) (idx idx' : Nat) (q : Vec f R)
    (h : fq.map (fun rows => rows[idx]?) = fq'.map (fun rows => rows[idx']?)) :
    maskedRow neginf items norms fq fi idx q = maskedRow neginf items norms fq' fi idx' q := by
  unfold maskedRow
  cases fq with
  | none =>
    cases fq' with
    | none => rfl
    | some r' => simp at h
  | some r =>
    cases fq' with
    | none => simp at h
    | some r' =>
      simp only [Option.map_some, Option.some.injEq] at h
      simp only [h]

end Implicit
