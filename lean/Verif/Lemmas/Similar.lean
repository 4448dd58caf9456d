import Verif.Lemmas.Recommend

set_option linter.unusedSectionVars false

namespace Implicit

variable {R : Type} [LinearOrder R] [Field R] {f : Nat}

/-- The row of answers for one query: selection, padding, division by the query's norm. -/
def simRow (H : HeapImpl (R × Nat) pairLt) (N : Nat) (s : List R) (n : R) : List (Nat × R) :=
  (padRow N (sel H N s)).map fun p => (p.1, p.2 / n)

theorem zipWith_range {α β γ : Type} (g : α → β → γ) (a : Nat → α) (l : List β) :
    List.zipWith g ((List.range l.length).map a) l =
      (l.zipIdx).map fun p => g (a p.2) p.1 := by
  apply List.ext_getElem?
  intro i
  simp only [List.getElem?_zipWith, List.getElem?_map, List.getElem?_zipIdx]
  by_cases h : i < l.length
  · simp [h]
  · simp [List.getElem?_eq_none (by omega : l.length ≤ i)]

theorem similarWith_eq (H : HeapImpl (R × Nat) pairLt) (neginf : R) {factors : List (Vec f R)}
    {norms : List R} {ids : Ids} {query : List (Vec f R)} {qnorms : List R} {N : Nat}
    {fi : Option PyFilter} {items : Option (List Int)} {fac : List (Vec f R)} {ns : List R}
    {its : Option (List Nat)} {S : Nat → List R} {T : Nat → List (Nat × R)}
    (hres : restrictSimilar factors norms fi items = .ok (fac, ns, its))
    (hN : 1 ≤ N) (hfac : fac ≠ []) (hlen : qnorms.length = query.length)
    (hS : ∀ idx q, query[idx]? = some q →
      maskedRow neginf fac (some ns) none (fi.map PyFilter.ids) idx q = .ok (S idx))
    (hT : ∀ r n, qnorms[r]? = some n → remapRow its (simRow H N (S r) n) = .ok (T r)) :
    similarWith H neginf factors norms ids query qnorms N fi items =
      packAnswer ids ((List.range query.length).map T) := by
  unfold similarWith similarityScore
  rw [hres]
  simp only [bind, Except.bind]
  rw [topk_eq H neginf hN hfac hS]
  simp only [pure, Except.pure]
  rw [← hlen, zipWith_range]
  rw [mapM_map_ok (h := fun p => T p.2)]
  · simp only
    congr 1
    rw [← zipIdx_snd, List.map_map]; rfl
  · rintro ⟨n, r⟩ hp
    have := (mem_zipIdx_iff' (p := (n, r))).mp hp
    exact hT r n this

theorem similarWith_one (H : HeapImpl (R × Nat) pairLt) (neginf : R) {factors : List (Vec f R)}
    {norms : List R} {u : Nat} {x : Vec f R} {n : R} {N : Nat}
    {fi : Option PyFilter} {items : Option (List Int)} {fac : List (Vec f R)} {ns : List R}
    {its : Option (List Nat)} {s : List R} {t : List (Nat × R)}
    (hres : restrictSimilar factors norms fi items = .ok (fac, ns, its))
    (hN : 1 ≤ N) (hfac : fac ≠ [])
    (hS : maskedRow neginf fac (some ns) none (fi.map PyFilter.ids) 0 x = .ok s)
    (hT : remapRow its (simRow H N s n) = .ok t) :
    similarWith H neginf factors norms (.one u) [x] [n] N fi items = .ok (.one t) := by
  rw [similarWith_eq H neginf hres hN hfac rfl (S := fun _ => s) (T := fun _ => t)]
  · rfl
  · intro idx q hq
    have h0 := (List.getElem?_eq_some_iff.mp hq).1
    simp at h0; subst h0
    simp at hq; subst hq; exact hS
  · intro r m hm
    have h0 := (List.getElem?_eq_some_iff.mp hm).1
    simp at h0; subst h0
    simp at hm; subst hm; exact hT

theorem similarWith_ok_inv {H : HeapImpl (R × Nat) pairLt} {neginf : R} {factors : List (Vec f R)}
    {norms : List R} {ids : Ids} {query : List (Vec f R)} {qnorms : List R} {N : Nat}
    {fi : Option PyFilter} {items : Option (List Int)} {ans : Answer R}
    (h : similarWith H neginf factors norms ids query qnorms N fi items = .ok ans) :
    ∃ fac ns its rows rows', restrictSimilar factors norms fi items = .ok (fac, ns, its) ∧
      topk H neginf fac query N (some ns) none (fi.map PyFilter.ids) = .ok rows ∧
      (List.zipWith (fun row n => row.map fun p : Nat × R => (p.1, p.2 / n)) rows qnorms).mapM
        (remapRow its) = .ok rows' ∧
      packAnswer ids rows' = .ok ans := by
  unfold similarWith similarityScore at h
  cases h1 : restrictSimilar factors norms fi items with
  | error e => rw [h1] at h; cases h
  | ok t =>
    obtain ⟨fac, ns, its⟩ := t
    rw [h1] at h
    simp only [bind, Except.bind] at h
    cases h2 : topk H neginf fac query N (some ns) none (fi.map PyFilter.ids) with
    | error e => rw [h2] at h; cases h
    | ok rows =>
      rw [h2] at h
      simp only [pure, Except.pure] at h
      cases h3 : (List.zipWith (fun row n => row.map fun p : Nat × R => (p.1, p.2 / n)) rows
          qnorms).mapM (remapRow its) with
      | error e => rw [h3] at h; cases h
      | ok rows' =>
        rw [h3] at h
        exact ⟨fac, ns, its, rows, rows', rfl, h2, h3, h⟩

/-- Rows of a batch similarity query are the answers to the single queries. -/
theorem similarWith_batch (H : HeapImpl (R × Nat) pairLt) (neginf : R) {factors : List (Vec f R)}
    {norms : List R} {us : List Nat} {query : List (Vec f R)} {qnorms : List R} {N : Nat}
    {fi : Option PyFilter} {items : Option (List Int)} {ans : Answer R}
    (hlen : qnorms.length = query.length)
    (h : similarWith H neginf factors norms (.many us) query qnorms N fi items = .ok ans) :
    ∃ rows, ans = .many rows ∧ rows.length = query.length ∧
      ∀ (r : Nat) x n, query[r]? = some x → qnorms[r]? = some n → ∃ row, rows[r]? = some row ∧
        ∀ u, similarWith H neginf factors norms (.one u) [x] [n] N fi items = .ok (.one row) := by
  obtain ⟨fac, ns, its, rows0, rows1, h1, h2, h3, h4⟩ := similarWith_ok_inv h
  cases h4
  by_cases hq : query = []
  · subst hq
    have : qnorms = [] := by simpa using hlen
    subst this
    rw [topk_nil] at h2; cases h2
    cases h3
    exact ⟨[], rfl, rfl, by simp⟩
  · obtain ⟨hk, hi, hm⟩ := topk_ok_inv h2 hq
    obtain ⟨x0, hx0⟩ := List.exists_mem_of_ne_nil _ hq
    choose! S hS using hm
    set T : Nat → List R := fun i => S i (query[i]?.getD x0) with hT
    have hT' : ∀ idx q, query[idx]? = some q → maskedRow neginf fac (some ns) none
        (fi.map PyFilter.ids) idx q = .ok (T idx) := by
      intro idx q hq'
      have := hS idx q hq'
      rw [hT]; simp only [hq', Option.getD_some]; exact this
    rw [topk_eq H neginf hk hi hT'] at h2
    cases h2
    rw [← hlen, zipWith_range] at h3
    obtain ⟨hl, h3'⟩ := mapM_ok_iff h3
    refine ⟨rows1, rfl, by rw [hl]; simp [hlen], ?_⟩
    intro r x n hx hn
    obtain ⟨row, e1, e2⟩ := h3' r (simRow H N (T r) n) (by
      rw [List.getElem?_map, List.getElem?_zipIdx, hn]; simp [simRow])
    refine ⟨row, e2, fun u => ?_⟩
    refine similarWith_one H neginf h1 hk hi ?_ e1
    rw [← hT' r x hx]
    exact maskedRow_single _ _ _ _ _ _ _ _ _ rfl

end Implicit
