import Verif.Lemmas.KnnExact
import Verif.Lemmas.HeapExact
import Verif.Props.C71
/-!
# C71: a longer list contains every result of a shorter one, also when scores tie
-/

set_option linter.unusedSectionVars false

namespace Implicit

open Spec

variable {R : Type} [LinearOrder R] [Field R] {f : Nat}

omit [Field R] in
/-- A larger `k` keeps every selected pair. -/
theorem sel_nested (H : HeapImpl (R × Nat) pairLt) {k k' : Nat} (hk : 1 ≤ k) (hkk : k ≤ k') (s : List R) :
    sel H k s ⊆ sel H k' s := by
  obtain ⟨h, e, -, hp⟩ := offerAll_isTopK H hk s.zipIdx
  obtain ⟨h', e', -, hp'⟩ := offerAll_isTopK H (le_trans hk hkk) s.zipIdx
  have hnd : s.zipIdx.Nodup := (nodup_zipIdx_snd s).of_map _
  have hsub := offerAll_nested hk hkk s.zipIdx (HeapInv.nil H k) (HeapInv.nil H k') (by simpa using hnd) (by simp) e e'
  have e1 : sel H k s = H.sort h := by unfold sel selectRow; rw [e]; rfl
  have e2 : sel H k' s = H.sort h' := by unfold sel selectRow; rw [e']; rfl
  rw [e1, e2]
  exact fun p hp1 => hp'.mem_iff.mpr (hsub (hp.mem_iff.mp hp1))

theorem padRow_nested (H : HeapImpl (R × Nat) pairLt) {k k' : Nat} (hk : 1 ≤ k) (hkk : k ≤ k') (s : List R) :
    padRow k (sel H k s) ⊆ padRow k' (sel H k' s) := by
  intro p hp
  unfold padRow at hp ⊢
  rcases List.mem_append.mp hp with h | h
  · exact List.mem_append_left _ (List.map_subset _ (sel_nested H hk hkk s) h)
  · refine List.mem_append_right _ ?_
    obtain ⟨h1, rfl⟩ := List.mem_replicate.mp h
    refine List.mem_replicate.mpr ⟨?_, rfl⟩
    rw [(sel_topk H hk s).length] at h1
    rw [(sel_topk H (le_trans hk hkk) s).length]
    omega

theorem topk_nested {H : HeapImpl (R × Nat) pairLt} {neginf : R} {items query : List (Vec f R)}
    {k k' : Nat} {norms : Option (List R)} {fq : Option (List (List Nat))} {fi : Option (List Nat)}
    {rows rows' : List (List (Nat × R))} (hk : 1 ≤ k) (hkk : k ≤ k') (h : topk H neginf items query k norms fq fi = .ok rows)
    (h' : topk H neginf items query k' norms fq fi = .ok rows') : List.Forall₂ (· ⊆ ·) rows rows' := by
  by_cases hq : query = []
  · subst hq
    rw [topk_nil] at h h'; cases h; cases h'
    exact .nil
  · obtain ⟨-, hi, hm⟩ := topk_ok_inv h hq
    obtain ⟨x0, hx0⟩ := List.exists_mem_of_ne_nil _ hq
    choose! S hS using hm
    have hT' : ∀ idx q, query[idx]? = some q → maskedRow neginf items norms fq fi idx q = .ok (S idx (query[idx]?.getD x0)) := by
      intro idx q hq'
      have := hS idx q hq'
      simp only [hq', Option.getD_some]; exact this
    rw [topk_eq H neginf hk hi (S := fun i => S i (query[i]?.getD x0)) hT'] at h
    rw [topk_eq H neginf (le_trans hk hkk) hi (S := fun i => S i (query[i]?.getD x0)) hT'] at h'
    cases h; cases h'
    rw [List.forall₂_map_left_iff, List.forall₂_map_right_iff, List.forall₂_same]
    intro r _
    exact padRow_nested H hk hkk _

theorem remapRow_nested {its : Option (List Nat)} {a b a' b' : List (Nat × R)} (h : a ⊆ b) (ha : remapRow its a = .ok a')
    (hb : remapRow its b = .ok b') : a' ⊆ b' := by
  cases its with
  | none => cases ha; cases hb; exact h
  | some l =>
    unfold remapRow at ha hb
    simp only at ha hb
    obtain ⟨la, ga⟩ := mapM_ok_iff ha
    obtain ⟨lb, gb⟩ := mapM_ok_iff hb
    intro p hp
    obtain ⟨i, hi, rfl⟩ := List.getElem_of_mem hp
    obtain ⟨y, hy, hy'⟩ := ga i a[i] (List.getElem?_eq_getElem (by omega))
    rw [List.getElem?_eq_getElem hi] at hy'
    have hin : a[i]'(by omega) ∈ b := h (List.getElem_mem _)
    obtain ⟨j, hj, ej⟩ := List.getElem_of_mem hin
    obtain ⟨z, hz, hz'⟩ := gb j b[j] (List.getElem?_eq_getElem hj)
    rw [ej, hy] at hz
    rw [Option.some.inj hy', Except.ok.inj hz]
    exact List.mem_of_getElem? hz'

theorem remap_nested {its : Option (List Nat)} {rows rows' : List (List (Nat × R))} (h : List.Forall₂ (· ⊆ ·) rows rows') :
    ∀ {out out' : List (List (Nat × R))}, rows.mapM (remapRow its) = .ok out → rows'.mapM (remapRow its) = .ok out' →
      List.Forall₂ (· ⊆ ·) out out' := by
  induction h with
  | nil => intro out out' e e'; cases e; cases e'; exact .nil
  | @cons a b as bs hab _ ih =>
    intro out out' e e'
    rw [List.mapM_cons] at e e'
    cases ha : remapRow its a with
    | error x => rw [ha] at e; cases e
    | ok a' =>
      cases hb : remapRow its b with
      | error x => rw [hb] at e'; cases e'
      | ok b' =>
        cases has : as.mapM (remapRow its) with
        | error x => rw [ha, has] at e; cases e
        | ok as' =>
          cases hbs : bs.mapM (remapRow its) with
          | error x => rw [hb, hbs] at e'; cases e'
          | ok bs' =>
            rw [ha, has] at e
            rw [hb, hbs] at e'
            cases e; cases e'
            exact .cons (remapRow_nested hab ha hb) (ih has hbs)

theorem pack_nested {ids : Ids} {rows rows' : List (List (Nat × R))} (h : List.Forall₂ (· ⊆ ·) rows rows') {a b : Answer R}
    (ha : packAnswer ids rows = .ok a) (hb : packAnswer ids rows' = .ok b) : Rowwise (· ⊆ ·) a b := by
  obtain ⟨small, e, hr⟩ := packAnswer_rowwise h hb
  rw [ha] at e
  cases e
  exact hr

/-- **C71** (`recommend`, ties).  Whatever the other arguments and however many scores tie: every result (item and score) of the
query for `N` results is a result of the query for any larger `N'`. -/
theorem C71_recommend_kept (H : HeapImpl (R × Nat) pairLt) (neginf : R) (m : Factors f R)
    (recalc : SpRows R → Except Err (List (Vec f R))) (userid : Ids) (ui : Option (SpRows R)) (fl : Bool)
    (fi : Option PyFilter) (recalculate : Bool) (items : Option (List Int)) (N N' : Nat) (hN : 1 ≤ N) (hNN : N ≤ N')
    (big : Answer R) (h : recommend H neginf m recalc userid ui N' fl fi recalculate items = .ok big) :
    ∃ small, recommend H neginf m recalc userid ui N fl fi recalculate items = .ok small ∧ Rowwise (· ⊆ ·) small big := by
  obtain ⟨small, e, -⟩ := C71_recommend_scores H neginf m recalc userid ui fl fi recalculate items N N' hN hNN big h
  refine ⟨small, e, ?_⟩
  obtain ⟨X, n', fac, its, rows', out', h1, h2, h3, h4, h5, h6⟩ := recommend_ok_inv h
  obtain ⟨X2, n, fac2, its2, rows, out, g1, g2, g3, g4, g5, g6⟩ := recommend_ok_inv e
  obtain ⟨n2, e3, hn, hnn, -⟩ := restrictItems_prefix hN hNN h3
  rw [g2] at h2
  rw [g3] at e3
  cases h2; cases e3
  exact pack_nested (remap_nested (topk_nested hn hnn g4 h4) g5 h5) g6 h6

theorem zipWith_nested {rows rows' : List (List (Nat × R))} (h : List.Forall₂ (· ⊆ ·) rows rows') :
    ∀ qn : List R, List.Forall₂ (· ⊆ ·)
      (List.zipWith (fun row n => row.map fun p : Nat × R => (p.1, p.2 / n)) rows qn)
      (List.zipWith (fun row n => row.map fun p : Nat × R => (p.1, p.2 / n)) rows' qn) := by
  induction h with
  | nil => intro qn; simp
  | @cons a b as bs hab _ ih =>
    intro qn
    cases qn with
    | nil => simp
    | cons c qn =>
      rw [List.zipWith_cons_cons, List.zipWith_cons_cons]
      exact .cons (List.map_subset _ hab) (ih qn)

theorem similarWith_nested {H : HeapImpl (R × Nat) pairLt} {neginf : R} {factors : List (Vec f R)} {norms : List R}
    {ids : Ids} {query : List (Vec f R)} {qnorms : List R} {fi : Option PyFilter} {items : Option (List Int)}
    {N N' : Nat} (hN : 1 ≤ N) (hNN : N ≤ N') {small big : Answer R}
    (h : similarWith H neginf factors norms ids query qnorms N fi items = .ok small)
    (h' : similarWith H neginf factors norms ids query qnorms N' fi items = .ok big) : Rowwise (· ⊆ ·) small big := by
  obtain ⟨fac, ns, its, rows, out, h1, h2, h3, h4⟩ := similarWith_ok_inv h
  obtain ⟨fac', ns', its', rows', out', h1', h2', h3', h4'⟩ := similarWith_ok_inv h'
  rw [h1] at h1'
  cases h1'
  exact pack_nested (remap_nested (zipWith_nested (topk_nested hN hNN h2 h2') qnorms) h3 h3') h4 h4'

/-- **C71** (`similar_items`, `similar_users`, ties).  Every result for `N` is a result for any larger `N'`. -/
theorem C71_similar_kept (H : HeapImpl (R × Nat) pairLt) (neginf : R) (factors : List (Vec f R)) (norms : List R)
    (ids : Ids) (fi : Option PyFilter) (items : Option (List Int)) (N N' : Nat) (hN : 1 ≤ N) (hNN : N ≤ N')
    (big : Answer R) (h : similar H neginf factors norms ids N' fi items = .ok big) :
    ∃ small, similar H neginf factors norms ids N fi items = .ok small ∧ Rowwise (· ⊆ ·) small big := by
  obtain ⟨small, e, -⟩ := C71_similar_scores H neginf factors norms ids fi items N N' hN hNN big h
  refine ⟨small, e, ?_⟩
  unfold similar at h e
  cases h1 : gather factors ids.toList with
  | error x => rw [h1] at h; cases h
  | ok q =>
    cases h2 : gather norms ids.toList with
    | error x => rw [h1, h2] at h; cases h
    | ok n =>
      rw [h1, h2] at h e
      exact similarWith_nested hN hNN e h

/-- **C71** (item-item models, ties).  Every recommendation for `N` is one for any larger `N'`, with
`filter_already_liked_items` too. -/
theorem C71_item_item_kept (H : HeapImpl (R × Nat) pairLt) (lowest : R) (sim : SpRows R) (hsim : SquareRows sim)
    (row : List (Nat × R)) (hrow : ∀ e ∈ row, e.1 < sim.length) (N N' : Nat) (hN : 1 ≤ N) (hNN : N ≤ N') (liked : Bool) :
    ∃ a b, knnRecommendOne H lowest (KnnState.ofSimilarity sim) [row] N liked none none =
        (.ok (intRow a), KnnState.ofSimilarity sim) ∧
      knnRecommendOne H lowest (KnnState.ofSimilarity sim) [row] N' liked none none =
        (.ok (intRow b), KnnState.ofSimilarity sim) ∧ a ⊆ b := by
  obtain ⟨h, e, hs⟩ := scorer_exact H sim hsim row hrow N hN liked
  obtain ⟨h', e', hs'⟩ := scorer_exact H sim hsim row hrow N' (le_trans hN hNN) liked
  obtain ⟨g, eg, -, hp⟩ := offerAll_isTopK H hN (candidates sim row (knnScore sim row liked))
  obtain ⟨g', eg', -, hp'⟩ := offerAll_isTopK H (le_trans hN hNN) (candidates sim row (knnScore sim row liked))
  rw [eg] at e; cases e
  rw [eg'] at e'; cases e'
  have hsub := offerAll_nested hN hNN _ (HeapInv.nil H N) (HeapInv.nil H N') (by simpa using candidates_nodup _ _ _) (by simp) eg eg'
  have key : ∀ {N : Nat} {o : List (Nat × R)},
      scorerRecommend H sim (Accum.new sim.length) row N liked = .ok (o, Accum.new sim.length) →
      knnRecommendOne H lowest (KnnState.ofSimilarity sim) [row] N liked none none =
        (.ok (intRow o), KnnState.ofSimilarity sim) := by
    intro N o ho
    unfold knnRecommendOne
    have he : scorerRecommend H (KnnState.ofSimilarity sim).similarity (KnnState.ofSimilarity sim).acc row N liked =
      .ok (o, Accum.new sim.length) := ho
    simp only [knnPlan, he]
    rfl
  refine ⟨_, _, key hs, key hs', ?_⟩
  exact List.map_subset _ fun p h1 => hp'.mem_iff.mpr (hsub (hp.mem_iff.mp h1))

/-- Three items tie; in the second example (`C71_ties_violated`) the order of the tied items changes with `N`, but none of them
is lost. -/
example :
    let sim : SpRows Rat := [[(0, 1), (1, 1), (2, 1)], [], []]
    (knnRecommendOne insertionHeap (-1000) (KnnState.ofSimilarity sim) [[(0, 1)]] 1 false none none).1 = .ok [(2, 1)] ∧
    (knnRecommendOne insertionHeap (-1000) (KnnState.ofSimilarity sim) [[(0, 1)]] 2 false none none).1 = .ok [(2, 1), (1, 1)] := by
  decide +kernel

example (H : HeapImpl (Rat × Nat) pairLt) :
    ∃ small, recommend H (-1000) (⟨[![1]], [![5], ![1], ![5], ![7], ![5]]⟩ : Factors 1 Rat) noRecalc (.one 0) none 3 false none
        false none = .ok small ∧ Rowwise (· ⊆ ·) small (.one [(3, 7), (4, 5), (2, 5), (0, 5)]) :=
  C71_recommend_kept H _ _ _ _ _ _ _ _ _ 3 4 (by omega) (by omega) _ (C71_ties_violated H).2.2

end Implicit
