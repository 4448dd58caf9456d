import Verif.Props.C02
import Verif.Lemmas.Similar

/-!
# C03 — a batch answers every row as if asked alone, whatever the batching and the schedule
-/

namespace Implicit

variable {R : Type} [LinearOrder R] [Field R] {f : Nat}

/-- **C03** (schedule).  `bs` are the stores of the blocks.  Whatever the interleaving `ws` of these
stores (any order of blocks, threads and individual stores), no store leaves the buffers and the
final contents are those of the sequential run. -/
theorem C03_topk_schedule (H : HeapImpl (R × Nat) pairLt) (neginf : R) (items query : List (Vec f R))
    (k : Nat) (norms : Option (List R)) (fq : Option (List (List Nat))) (fi : Option (List Nat))
    (bs : List (List (Nat × (Nat × R))))
    (hb : topkBatches H neginf items query k norms fq fi = .ok bs)
    (ws : List (Nat × (Nat × R))) (hws : ws.Perm bs.flatten) :
    ∃ mem, topkFlat H neginf items query k norms fq fi = .ok mem ∧
      writeAll (topkInit query.length k) ws = .ok mem := by
  by_cases hq : query = []
  · subst hq
    have : bs = [] := by
      rw [topkBatches_nil] at hb; cases hb; rfl
    subst this
    have : ws = [] := by simpa using hws
    subst this
    exact ⟨_, topkFlat_nil .., rfl⟩
  · obtain ⟨hk, hi, hm⟩ := topkBatches_ok_inv hb hq
    choose! S hS using hm
    have hS' : ∀ idx q, query[idx]? = some q →
        maskedRow neginf items norms fq fi idx q = .ok ((fun i => S i (query[i]?.getD q)) idx) := by
      intro idx q hq'
      simp only [hq', Option.getD_some]
      exact hS idx q hq'
    obtain ⟨q0, hq0⟩ : ∃ q, q ∈ query := List.exists_mem_of_ne_nil _ hq
    set T : Nat → List R := fun i => S i (query[i]?.getD q0) with hT
    have hT' : ∀ idx q, query[idx]? = some q →
        maskedRow neginf items norms fq fi idx q = .ok (T idx) := by
      intro idx q hq'
      have := hS idx q hq'
      rw [hT]; simp only [hq', Option.getD_some]; exact this
    obtain ⟨mem, e1, e2⟩ := topkFlat_eq H neginf hk hi hT'
    obtain ⟨bs', e3, e4⟩ := topkBatches_eq H neginf hk hi hT'
    rw [hb] at e3; cases e3
    refine ⟨mem, e1, ?_⟩
    rw [e4] at hws
    exact writeAll_perm (rowStores_nodup H hk T _) hws e2

/-- The one-row matrix holding row `r` of `ui`. -/
def rowMatrix (ui : Option (SpRows R)) (r : Nat) : Option (SpRows R) :=
  ui.bind fun M => (M[r]?).map fun row => [row]

private theorem liked_single (fl : Bool) (ui : Option (SpRows R)) (its : Option (List Nat)) (r : Nat)
    (h : fl = true → ∃ M row, ui = some M ∧ M[r]? = some row) :
    (likedPositions fl ui its).map (fun rows => rows[r]?) =
      (likedPositions fl (rowMatrix ui r) its).map (fun rows => rows[0]?) := by
  cases fl with
  | false => rfl
  | true =>
    obtain ⟨M, row, e1, e2⟩ := h rfl
    subst e1
    cases its <;> simp [likedPositions, rowMatrix, e2]

/-- **C03** (batch = single).  If a batch query returns, it has one answer row per id and each of
them is what the single query for that id returns (with the corresponding row of `user_items`), for
every batch length, every filter setting and either factor source.  `recalc` only needs to be
row-wise, which ALS's `recalculate_user` is (C17). -/
theorem C03_recommend_batch (H : HeapImpl (R × Nat) pairLt) (neginf : R) (m : Factors f R)
    (recalc : SpRows R → Except Err (List (Vec f R)))
    (g : List (Nat × R) → Except Err (Vec f R)) (hrec : ∀ rows, recalc rows = rows.mapM g)
    (us : List Nat) (ui : Option (SpRows R)) (N : Nat) (fl : Bool) (fi : Option PyFilter)
    (recalculate : Bool) (items : Option (List Int)) (ans : Answer R)
    (h : recommend H neginf m recalc (.many us) ui N fl fi recalculate items = .ok ans) :
    ∃ rows, ans = .many rows ∧ rows.length = us.length ∧
      ∀ (r u : Nat), us[r]? = some u → ∃ row, rows[r]? = some row ∧
        recommend H neginf m recalc (.one u) (rowMatrix ui r) N fl fi recalculate items =
          .ok (.one row) := by
  obtain ⟨X, N', fac, its, rows0, rows1, h1, h2, h3, h4, h5, h6⟩ := recommend_ok_inv h
  cases h6
  -- the query has one factor per id
  have hneed : (fl || recalculate) = true → ∃ M, ui = some M ∧ M.length = us.length := by
    intro hb
    unfold checkUserItems at h1
    rw [if_pos hb] at h1
    cases ui with
    | none => cases h1
    | some M =>
      refine ⟨M, rfl, ?_⟩
      by_contra hne
      have h1' : (if M.length = us.length then (Except.ok () : Except Err Unit)
          else .error .valueError) = .ok () := h1
      rw [if_neg hne] at h1'; cases h1'
  have hXlen : X.length = us.length := by
    unfold userFactor at h2
    cases recalculate with
    | false => exact gather_length (by simpa [Ids.toList] using h2)
    | true =>
      obtain ⟨M, e, hl⟩ := hneed (by simp)
      subst e
      simp only [if_true] at h2
      rw [hrec] at h2
      rw [(mapM_ok_iff h2).1, hl]
  by_cases hus : us = []
  · subst hus
    have hX0 : X = [] := by simpa using hXlen
    subst hX0
    have : rows0 = [] := by
      rw [topk_nil] at h4; cases h4; rfl
    subst this
    cases h5
    exact ⟨[], rfl, rfl, by simp⟩
  · have hXne : X ≠ [] := by
      intro h0; rw [h0] at hXlen; exact hus (by simpa using hXlen.symm)
    obtain ⟨hk, hi, hm⟩ := topk_ok_inv h4 hXne
    obtain ⟨x0, hx0⟩ := List.exists_mem_of_ne_nil _ hXne
    choose! S hS using hm
    set T : Nat → List R := fun i => S i (X[i]?.getD x0) with hT
    have hT' : ∀ idx q, X[idx]? = some q → maskedRow neginf fac none (likedPositions fl ui its)
        (fi.map PyFilter.ids) idx q = .ok (T idx) := by
      intro idx q hq'
      have := hS idx q hq'
      rw [hT]; simp only [hq', Option.getD_some]; exact this
    rw [topk_eq H neginf hk hi hT'] at h4
    cases h4
    obtain ⟨hl5, h5'⟩ := mapM_ok_iff h5
    refine ⟨rows1, rfl, by rw [hl5]; simp [hXlen], ?_⟩
    intro r u hr
    have hrlt : r < us.length := (List.getElem?_eq_some_iff.mp hr).1
    have hrX : r < X.length := by omega
    have hXr : X[r]? = some X[r] := List.getElem?_eq_getElem hrX
    obtain ⟨row, e1, e2⟩ := h5' r (padRow N' (sel H N' (T r))) (by simp [hrX])
    refine ⟨row, e2, ?_⟩
    have hrow : (fl || recalculate) = true → ∃ M rw', ui = some M ∧ M[r]? = some rw' := by
      intro hb
      obtain ⟨M, e, hl⟩ := hneed hb
      exact ⟨M, _, e, List.getElem?_eq_getElem (by omega)⟩
    refine recommend_one H neginf (x := X[r]) (s := T r) ?_ ?_ h3 hk hi ?_ e1
    · unfold checkUserItems
      by_cases hb : (fl || recalculate) = true
      · obtain ⟨M, rw', e, hrw⟩ := hrow hb
        subst e
        rw [if_pos hb]
        simp [rowMatrix, hrw, Ids.count]
      · rw [if_neg hb]
    · unfold userFactor at h2 ⊢
      cases recalculate with
      | false =>
        simp only [Bool.false_eq_true, if_false, Ids.toList] at h2 ⊢
        obtain ⟨_, hg⟩ := (gather_ok _ _ _).mp h2
        obtain ⟨x, hx1, hx2⟩ := hg r u hr
        rw [hXr] at hx2; cases hx2
        exact gather_one hx1
      | true =>
        obtain ⟨M, rw', e, hrw⟩ := hrow (by simp)
        subst e
        simp only [if_true] at h2 ⊢
        rw [hrec] at h2
        obtain ⟨y, hy1, hy2⟩ := (mapM_ok_iff h2).2 r rw' hrw
        rw [hXr] at hy2; cases hy2
        simp only [rowMatrix, Option.bind_some, hrw, Option.map_some]
        rw [hrec, List.mapM_cons, hy1]
        rfl
    · rw [← hT' r _ hXr]
      refine (maskedRow_single _ _ _ _ _ _ _ _ _ (liked_single fl ui its r ?_)).symm
      intro hfl
      exact hrow (by simp [hfl])

/-- **C03** (converse).  If every single query returns, so does the batch (with one row of
`user_items` per id). -/
theorem C03_recommend_batch_complete (H : HeapImpl (R × Nat) pairLt) (neginf : R) (m : Factors f R)
    (recalc : SpRows R → Except Err (List (Vec f R)))
    (g : List (Nat × R) → Except Err (Vec f R)) (hrec : ∀ rows, recalc rows = rows.mapM g)
    (us : List Nat) (hus : us ≠ []) (ui : SpRows R) (hui : ui.length = us.length)
    (N : Nat) (fl : Bool) (fi : Option PyFilter)
    (recalculate : Bool) (items : Option (List Int))
    (h : ∀ r u, us[r]? = some u → ∃ row,
      recommend H neginf m recalc (.one u) (rowMatrix (some ui) r) N fl fi recalculate items =
        .ok (.one row)) :
    ∃ rows, recommend H neginf m recalc (.many us) (some ui) N fl fi recalculate items =
      .ok (.many rows) := by
  have hpos : 0 < us.length := List.length_pos_iff.mpr hus
  -- factor of each query
  have hrow : ∀ r, r < us.length → rowMatrix (some ui) r = some [ui[r]?.getD []] := by
    intro r hr
    simp [rowMatrix, List.getElem?_eq_getElem (by omega : r < ui.length)]
  have hx : ∀ r, r < us.length → ∃ x, userFactor m recalc (.one (us[r]?.getD 0))
      (some [ui[r]?.getD []]) recalculate = .ok [x] := by
    intro r hr
    obtain ⟨row, e⟩ := h r us[r] (List.getElem?_eq_getElem hr)
    obtain ⟨X, N', fac, its, rows0, rows1, h1, h2, h3, h4, h5, h6⟩ := recommend_ok_inv e
    rw [hrow r hr] at h2
    have : us[r]?.getD 0 = us[r] := by simp [List.getElem?_eq_getElem hr]
    rw [this]
    unfold userFactor at h2 ⊢
    cases recalculate with
    | false =>
      simp only [Bool.false_eq_true, if_false, Ids.toList] at h2 ⊢
      obtain ⟨x, hx1, rfl⟩ := gather_one_iff h2
      exact ⟨x, h2⟩
    | true =>
      simp only [if_true] at h2 ⊢
      rw [hrec, List.mapM_cons] at h2 ⊢
      cases hg : g (ui[r]?.getD []) with
      | error e => rw [hg] at h2; cases h2
      | ok y => exact ⟨y, rfl⟩
  choose! x hx using hx
  obtain ⟨row0, e0⟩ := h 0 us[0] (List.getElem?_eq_getElem hpos)
  obtain ⟨X0, N', fac, its, rows0, rows1, _, h2, h3, h4, _, _⟩ := recommend_ok_inv e0
  have hXne : X0 ≠ [] := by
    intro hX; subst hX
    rw [hrow 0 hpos] at h2
    have h2' := hx 0 hpos
    have : us[0]?.getD 0 = us[0] := by simp [List.getElem?_eq_getElem hpos]
    rw [this, h2] at h2'
    cases h2'
  obtain ⟨hk, hi, _⟩ := topk_ok_inv h4 hXne
  have hper : ∀ r, r < us.length → ∃ s t,
      maskedRow neginf fac none (likedPositions fl (some [ui[r]?.getD []]) its)
        (fi.map PyFilter.ids) 0 (x r) = .ok s ∧
      remapRow its (padRow N' (sel H N' s)) = .ok t := by
    intro r hr
    obtain ⟨row, e⟩ := h r us[r] (List.getElem?_eq_getElem hr)
    obtain ⟨X, N2, fac2, its2, rows0, rows1, _, h2, h3', h4, h5, _⟩ := recommend_ok_inv e
    rw [h3] at h3'; cases h3'
    rw [hrow r hr] at h2 h4
    have h2' := hx r hr
    have : us[r]?.getD 0 = us[r] := by simp [List.getElem?_eq_getElem hr]
    rw [this, h2] at h2'
    cases h2'
    obtain ⟨_, _, hm⟩ := topk_ok_inv h4 (by simp)
    obtain ⟨s, hs⟩ := hm 0 (x r) (by simp)
    rw [topk_eq H neginf hk hi (S := fun _ => s) (by
      intro idx q hq
      have h0 := (List.getElem?_eq_some_iff.mp hq).1
      simp at h0; subst h0
      simp at hq; subst hq; exact hs)] at h4
    cases h4
    obtain ⟨t, ht, _⟩ := (mapM_ok_iff h5).2 0 (padRow N' (sel H N' s)) (by simp)
    exact ⟨s, t, hs, ht⟩
  choose! S T hS hT using hper
  refine ⟨(List.range us.length).map T, ?_⟩
  have hXeq : userFactor m recalc (.many us) (some ui) recalculate =
      .ok ((List.range us.length).map x) := by
    unfold userFactor at hx ⊢
    cases recalculate with
    | false =>
      simp only [Bool.false_eq_true, if_false, Ids.toList] at hx ⊢
      refine (gather_ok _ _ _).mpr ⟨by simp, ?_⟩
      intro j i hj
      have hjl := (List.getElem?_eq_some_iff.mp hj).1
      obtain ⟨y, hy, e⟩ := gather_one_iff (hx j hjl)
      rw [hj] at hy
      cases e
      exact ⟨_, hy, by simp [hjl]⟩
    | true =>
      simp only [if_true] at hx ⊢
      rw [hrec]
      have hui' : ui = (List.range us.length).map fun r => ui[r]?.getD [] := by
        apply List.ext_getElem?
        intro i
        by_cases hi : i < us.length
        · simp [hi, List.getElem?_eq_getElem (by omega : i < ui.length)]
        · simp [hi, List.getElem?_eq_none (by omega : ui.length ≤ i)]
      rw [hui']
      rw [mapM_map_ok (h := x)]
      intro r hr
      have := hx r (List.mem_range.mp hr)
      rw [hrec, List.mapM_cons] at this
      cases hg : g (ui[r]?.getD []) with
      | error e => rw [hg] at this; cases this
      | ok y => rw [hg] at this; cases this; rfl
  rw [recommend_eq H neginf (X := (List.range us.length).map x) (S := S) (T := T) ?_ hXeq h3 hk hi
    ?_ ?_]
  · simp [packAnswer]
  · unfold checkUserItems
    split_ifs with hb
    · simp [Ids.count, hui]
    · rfl
  · intro idx q hq
    have hlt : idx < us.length := by
      have := (List.getElem?_eq_some_iff.mp hq).1; simpa using this
    have hqx : q = x idx := by
      simp [hlt] at hq; exact hq.symm
    subst hqx
    rw [← hS idx hlt]
    have h0 := liked_single fl (some ui) its idx (fun _ => ⟨ui, _, rfl,
      List.getElem?_eq_getElem (by omega : idx < ui.length)⟩)
    rw [hrow idx hlt] at h0
    exact maskedRow_single _ _ _ _ _ _ _ _ _ h0
  · intro r hr
    exact hT r (by simpa using hr)

/-- **C03** for `similar_users` and `similar_items`: every row of a batch answer is the answer of the
single query. -/
theorem C03_similar_batch (H : HeapImpl (R × Nat) pairLt) (neginf : R) (factors : List (Vec f R))
    (norms : List R) (us : List Nat) (N : Nat) (fi : Option PyFilter) (items : Option (List Int))
    (ans : Answer R) (h : similar H neginf factors norms (.many us) N fi items = .ok ans) :
    ∃ rows, ans = .many rows ∧ rows.length = us.length ∧
      ∀ (r u : Nat), us[r]? = some u → ∃ row, rows[r]? = some row ∧
        similar H neginf factors norms (.one u) N fi items = .ok (.one row) := by
  unfold similar at h
  simp only [Ids.toList] at h
  cases h1 : gather factors us with
  | error e => rw [h1] at h; cases h
  | ok query =>
    cases h2 : gather norms us with
    | error e => rw [h1, h2] at h; cases h
    | ok qnorms =>
      rw [h1, h2] at h
      simp only [bind, Except.bind] at h
      have hl1 := gather_length h1
      have hl2 := gather_length h2
      obtain ⟨rows, e, hl, hr⟩ := similarWith_batch H neginf (by omega) h
      refine ⟨rows, e, by omega, ?_⟩
      intro r u hu
      obtain ⟨x, hx1, hx2⟩ := ((gather_ok _ _ _).mp h1).2 r u hu
      obtain ⟨n, hn1, hn2⟩ := ((gather_ok _ _ _).mp h2).2 r u hu
      obtain ⟨row, e1, e2⟩ := hr r x n hx2 hn2
      refine ⟨row, e1, ?_⟩
      unfold similar
      simp only [Ids.toList]
      rw [gather_one hx1, gather_one hn1]
      exact e2 u

/-- **C03** for `similar_items(..., recalculate_item=True)` with a row-wise `recalculate_item`. -/
theorem C03_similar_recalc_batch (H : HeapImpl (R × Nat) pairLt) (neginf : R) (norm : Vec f R → R)
    (eps : R) (factors : List (Vec f R)) (norms : List R)
    (recalc : SpRows R → Except Err (List (Vec f R)))
    (g : List (Nat × R) → Except Err (Vec f R)) (hrec : ∀ rows, recalc rows = rows.mapM g)
    (iu : SpRows R) (us : List Nat) (N : Nat) (fi : Option PyFilter)
    (items : Option (List Int)) (ans : Answer R)
    (h : similarRecalc H neginf norm eps factors norms recalc iu (.many us) N fi items = .ok ans) :
    ∃ rows, ans = .many rows ∧ rows.length = iu.length ∧
      ∀ (r : Nat) l, iu[r]? = some l → ∃ row, rows[r]? = some row ∧ ∀ u,
        similarRecalc H neginf norm eps factors norms recalc [l] (.one u) N fi items =
          .ok (.one row) := by
  unfold similarRecalc at h
  rw [hrec] at h
  cases h1 : iu.mapM g with
  | error e => rw [h1] at h; cases h
  | ok query =>
    rw [h1] at h
    simp only [bind, Except.bind] at h
    obtain ⟨hl1, hg⟩ := mapM_ok_iff h1
    obtain ⟨rows, e, hl, hr⟩ := similarWith_batch H neginf (by simp [safeNorms]) h
    refine ⟨rows, e, by omega, ?_⟩
    intro r l hrl
    obtain ⟨x, hx1, hx2⟩ := hg r l hrl
    obtain ⟨row, e1, e2⟩ := hr r x (if norm x = 0 then eps else norm x) hx2 (by
      simp [safeNorms, hx2])
    refine ⟨row, e1, fun u => ?_⟩
    unfold similarRecalc
    rw [hrec, List.mapM_cons, hx1]
    exact e2 u

/-- Non-trivial instance: a batch of two users over a two-item catalogue returns. -/
example : recommend insertionHeap (-1000) ⟨[![1], ![-1]], [![-1], ![-2]]⟩
    (noRecalc (R := Rat) (f := 1)) (.many [1, 0]) none 1 false none false none =
      .ok (.many [[(1, 2)], [(0, -1)]]) := by decide +kernel

example : similar insertionHeap (-1000) [![1], ![-1], ![2]] [1, 1, (2 : Rat)] (.many [2, 1]) 2 none
    (some [1, 2]) = .ok (.many [[(2, 1), (1, -1)], [(1, 1), (2, -1)]]) := by decide +kernel

end Implicit
